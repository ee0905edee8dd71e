import Verif.Doc.WriteLemmas

/-! # Reading what was written: the round trip of a data type -/

namespace Verif.Doc
open Verif Verif.Doc.Spec
open scoped List

section Steps
variable {X : Xyml}

theorem chain {a b : List (Node × Node)} {t u : DT} {r : Res DT}
    (h1 : assignAll X a t = .ok u) (h2 : assignAll X b u = r) : assignAll X (a ++ b) t = r := by
  rw [assignAll_append, h1]; exact h2

variable (hX : Lawful X)
include hX

theorem read_opt {k : String} {f : Facet} {o : Option Node} {t u : DT}
    (hf : ∀ v, facetOf t.kind (Node.str k, v) = f) (h0 : o = none → u = t)
    (h1 : ∀ v, o = some v → t.step X (Node.str k) v f = .ok u) :
    assignAll X (asPairs X (OM.optEnt (.str k) o)) t = .ok u := by
  cases o with
  | none => rw [h0 rfl]; rfl
  | some v =>
    show assignAll X [(X.ofKey (.str k), v)] t = _
    rw [hX.ofKey_str]
    show (assign X (Node.str k, v) t).bind (assignAll X []) = _
    rw [assign_eq, hf, h1 v rfl]
    rfl

theorem read_enc {α : Type} {k : String} {f : Facet} (enc : α → Node) (o : Option α) {t : DT}
    (u : Option α → DT) (hf : ∀ v, facetOf t.kind (Node.str k, v) = f) (h0 : u none = t)
    (h1 : ∀ a, o = some a → t.step X (Node.str k) (enc a) f = .ok (u (some a))) :
    assignAll X (asPairs X (OM.optEnt (.str k) (o.map enc))) t = .ok (u o) := by
  refine read_opt hX hf ?_ ?_
  · intro h
    rw [Option.map_eq_none_iff] at h
    rw [h, h0]
  · intro v hv
    rw [Option.map_eq_some_iff] at hv
    obtain ⟨a, ha, rfl⟩ := hv
    rw [h1 a ha, ha]

theorem read_dec {k : String} {f : Facet} (p : Prop) [Decidable p] (n : Node) {t : DT}
    (u : DT) (hf : ∀ v, facetOf t.kind (Node.str k, v) = f) (h0 : ¬p → u = t)
    (h1 : p → t.step X (Node.str k) n f = .ok u) :
    assignAll X (asPairs X (OM.optEnt (.str k) (if p then some n else none))) t = .ok u := by
  refine read_opt hX hf ?_ ?_
  · intro h
    by_cases hp : p
    · rw [if_pos hp] at h; cases h
    · exact h0 hp
  · intro v hv
    by_cases hp : p
    · rw [if_pos hp] at hv; cases hv; exact h1 hp
    · rw [if_neg hp] at hv; cases hv

/-- The kind-specific facets read back. -/
theorem read_body {b : Body} (hb : WritableBody b) (props items : Option Node) (g : Hdr)
    (fs : OM String (OM String DT)) (ps' : OM String DT) (it' : Option DT)
    (hp0 : props = none → ps' = OM.empty false)
    (hp1 : ∀ n, props = some n → b.kind = .object ∧ loadProps X n (OM.empty false) = .ok ps')
    (hi0 : items = none → it' = none)
    (hi1 : ∀ n, items = some n → b.kind = .array ∧ (hat X n).map some = .ok it') :
    assignAll X (asPairs X (b.ents X props items))
      (.ext g (freshBody b) fs (OM.empty false) none) = .ok (.ext g b fs ps' it') := by
  have np : b.kind ≠ .object → ps' = OM.empty false := fun h => by
    cases hp : props with
    | none => exact hp0 hp
    | some n => exact absurd (hp1 n hp).1 h
  have ni : b.kind ≠ .array → it' = none := fun h => by
    cases hp : items with
    | none => exact hi0 hp
    | some n => exact absurd (hi1 n hp).1 h
  cases b with
  | string f =>
    rw [np (by simp [Body.kind]), ni (by simp [Body.kind])]
    obtain ⟨h1, h2⟩ := hb
    simp only [Body.ents, asPairs_append, freshBody]
    refine chain (read_enc hX (f := .pattern) Node.str f.pattern
      (fun o => .ext g (.string ⟨o, 0, none⟩) fs _ none) (fun _ => rfl) rfl
      (fun s _ => by rw [step_pattern_string]; rfl)) ?_
    refine chain (read_dec hX (f := .minLength) _ _
      (.ext g (.string ⟨f.pattern, f.minLength, none⟩) fs _ none) (fun _ => rfl)
      (fun h => by rw [show f.minLength = 0 by omega])
      (fun _ => by rw [step_minLength_string, asUint_ofInt hX h1]; rfl)) ?_
    exact read_enc hX (f := .maxLength) (fun n : Nat => X.ofInt n) f.maxLength
      (fun o => .ext g (.string ⟨f.pattern, f.minLength, o⟩) fs _ none) (fun _ => rfl) rfl
      (fun n hn => by rw [step_maxLength_string, asUint_ofInt hX (h2 n hn)]; rfl)
  | file f =>
    rw [np (by simp [Body.kind]), ni (by simp [Body.kind])]
    obtain ⟨h1, h2⟩ := hb
    simp only [Body.ents, asPairs_append, freshBody]
    refine chain (read_enc hX (f := .fileTypes) (renderList Node.str) f.fileTypes
      (fun o => .ext g (.file ⟨o, 0, 2147483647⟩) fs _ none) (fun _ => rfl) rfl
      (fun s _ => by rw [step_fileTypes_file, asStringList_render]; rfl)) ?_
    refine chain (read_dec hX (f := .minLength) _ _
      (.ext g (.file ⟨f.fileTypes, f.minLength, 2147483647⟩) fs _ none) (fun _ => rfl)
      (fun h => by rw [show f.minLength = 0 by omega])
      (fun _ => by rw [step_minLength_file, asUint_ofInt hX h1]; rfl)) ?_
    exact read_dec hX (f := .maxLength) _ _
      (.ext g (.file ⟨f.fileTypes, f.minLength, f.maxLength⟩) fs _ none) (fun _ => rfl)
      (fun h => by rw [show f.maxLength = 2147483647 by omega])
      (fun _ => by rw [step_maxLength_file, asUint_ofInt hX h2]; rfl)
  | array f =>
    rw [np (by simp [Body.kind])]
    obtain ⟨h1, h2⟩ := hb
    simp only [Body.ents, asPairs_append, freshBody]
    refine chain (read_dec hX (f := .uniqueItems) _ _
      (.ext g (.array ⟨f.uniqueItems, 0, 2147483647⟩) fs _ none) (fun _ => rfl)
      (fun h => by rw [show f.uniqueItems = false by simpa using h])
      (fun _ => by rw [step_uniqueItems_array, asBool_ofBool hX]; rfl)) ?_
    refine chain (read_dec hX (f := .minItems) _ _
      (.ext g (.array ⟨f.uniqueItems, f.minItems, 2147483647⟩) fs _ none) (fun _ => rfl)
      (fun h => by rw [show f.minItems = 0 by omega])
      (fun _ => by rw [step_minItems_array, asUint_ofInt hX h1]; rfl)) ?_
    refine chain (read_dec hX (f := .maxItems) _ _
      (.ext g (.array ⟨f.uniqueItems, f.minItems, f.maxItems⟩) fs _ none) (fun _ => rfl)
      (fun h => by rw [show f.maxItems = 2147483647 by omega])
      (fun _ => by rw [step_maxItems_array, asUint_ofInt hX h2]; rfl)) ?_
    refine read_opt hX (f := .items) (fun _ => rfl) (fun h => by rw [hi0 h]) (fun n hn => ?_)
    obtain ⟨t, ht, rfl⟩ := Res.map_eq_ok.mp (hi1 n hn).2
    rw [step_items, ht]
    rfl
  | object f =>
    rw [ni (by simp [Body.kind])]
    obtain ⟨h1, h2⟩ := hb
    simp only [Body.ents, asPairs_append, freshBody]
    refine chain (read_opt hX (f := .additionalProperties)
      (u := .ext g (.object ⟨none, none, f.addtlProps, none, none⟩) fs _ none) (fun _ => rfl)
      (fun h => by
        have : f.addtlProps = true := by
          cases h' : f.addtlProps
          · rw [h'] at h; cases h
          · rfl
        rw [this])
      (fun v hv => by
        have : f.addtlProps = false ∧ v = X.ofBool false := by
          cases h' : f.addtlProps
          · rw [h'] at hv; cases hv; exact ⟨rfl, rfl⟩
          · rw [h'] at hv; cases hv
        rw [this.1, this.2, step_additionalProperties_object, asBool_ofBool hX]; rfl)) ?_
    refine chain (read_enc hX (f := .minProperties) (fun n : Nat => X.ofInt n) f.minProps
      (fun o => .ext g (.object ⟨o, none, f.addtlProps, none, none⟩) fs _ none) (fun _ => rfl) rfl
      (fun n hn => by rw [step_minProperties_object, asUint_ofInt hX (h1 n hn)]; rfl)) ?_
    refine chain (read_enc hX (f := .maxProperties) (fun n : Nat => X.ofInt n) f.maxProps
      (fun o => .ext g (.object ⟨f.minProps, o, f.addtlProps, none, none⟩) fs _ none)
      (fun _ => rfl) rfl
      (fun n hn => by rw [step_maxProperties_object, asUint_ofInt hX (h2 n hn)]; rfl)) ?_
    refine chain (read_enc hX (f := .discriminator) Node.str f.discrim
      (fun o => .ext g (.object ⟨f.minProps, f.maxProps, f.addtlProps, o, none⟩) fs _ none)
      (fun _ => rfl) rfl
      (fun n hn => by rw [step_discriminator_object]; rfl)) ?_
    refine chain (read_opt hX (f := .discriminatorValue)
      (u := .ext g (.object ⟨f.minProps, f.maxProps, f.addtlProps, f.discrim, f.discrimVal⟩) fs _
        none)
      (fun _ => rfl) (fun h => by rw [h]) (fun v hv => by
        rw [step_discriminatorValue_object, hv])) ?_
    refine read_opt hX (f := .properties) (fun _ => rfl) (fun h => by rw [hp0 h]) (fun n hn => ?_)
    rw [step_properties]
    rw [show properties (.ext g (.object ⟨f.minProps, f.maxProps, f.addtlProps, f.discrim,
      f.discrimVal⟩) fs (OM.empty false) none) = OM.empty false from rfl, (hp1 n hn).2]
    rfl
  | datetime f =>
    rw [np (by simp [Body.kind]), ni (by simp [Body.kind])]
    simp only [Body.ents, freshBody]
    exact read_enc hX (f := .format) Node.str f
      (fun o => .ext g (.datetime o) fs _ none) (fun _ => rfl) rfl
      (fun s _ => by rw [step_format_datetime]; rfl)
  | number f =>
    rw [np (by simp [Body.kind]), ni (by simp [Body.kind])]
    simp only [Body.ents, asPairs_append, freshBody]
    refine chain (read_enc hX (f := .format) Node.str f.format
      (fun o => .ext g (.number ⟨o, none, none, none⟩) fs _ none) (fun _ => rfl) rfl
      (fun s _ => by rw [step_format_number]; rfl)) ?_
    refine chain (read_enc hX (f := .minimum) X.ofFlt f.minimum
      (fun o => .ext g (.number ⟨f.format, o, none, none⟩) fs _ none) (fun _ => rfl) rfl
      (fun s _ => by rw [step_minimum_number, asFlt_ofFlt hX]; rfl)) ?_
    refine chain (read_enc hX (f := .maximum) X.ofFlt f.maximum
      (fun o => .ext g (.number ⟨f.format, f.minimum, o, none⟩) fs _ none) (fun _ => rfl) rfl
      (fun s _ => by rw [step_maximum_number, asFlt_ofFlt hX]; rfl)) ?_
    exact read_enc hX (f := .multipleOf) X.ofFlt f.multipleOf
      (fun o => .ext g (.number ⟨f.format, f.minimum, f.maximum, o⟩) fs _ none) (fun _ => rfl) rfl
      (fun s _ => by rw [step_multipleOf_number, asFlt_ofFlt hX]; rfl)
  | integer f =>
    rw [np (by simp [Body.kind]), ni (by simp [Body.kind])]
    obtain ⟨h1, h2⟩ := hb
    simp only [Body.ents, asPairs_append, freshBody]
    refine chain (read_enc hX (f := .format) Node.str f.format
      (fun o => .ext g (.integer ⟨o, none, none, none⟩) fs _ none) (fun _ => rfl) rfl
      (fun s _ => by rw [step_format_integer]; rfl)) ?_
    refine chain (read_enc hX (f := .minimum) X.ofInt f.minimum
      (fun o => .ext g (.integer ⟨f.format, o, none, none⟩) fs _ none) (fun _ => rfl) rfl
      (fun s hs => by rw [step_minimum_integer, asInt_ofInt hX (h1 s hs)]; rfl)) ?_
    refine chain (read_enc hX (f := .maximum) X.ofInt f.maximum
      (fun o => .ext g (.integer ⟨f.format, f.minimum, o, none⟩) fs _ none) (fun _ => rfl) rfl
      (fun s hs => by rw [step_maximum_integer, asInt_ofInt hX (h2 s hs)]; rfl)) ?_
    exact read_enc hX (f := .multipleOf) X.ofFlt f.multipleOf
      (fun o => .ext g (.integer ⟨f.format, f.minimum, f.maximum, o⟩) fs _ none) (fun _ => rfl) rfl
      (fun s _ => by rw [step_multipleOf_integer, asFlt_ofFlt hX]; rfl)
  | _ => rw [np (by simp [Body.kind]), ni (by simp [Body.kind])]; rfl

/-- Extra facets read back, for any type. -/
theorem read_extra (es : List (Scalar × Node)) (t : DT)
    (h : ∀ p ∈ es, ∃ s, p.1 = .str s ∧ s ∉ facetNames t.kind ∧
      (isBasic t.kind = true ∨ PlainKey s)) :
    assignAll X (asPairs X es) t = .ok (t.setExtra (t.extra.putAll es)) := by
  induction es generalizing t with
  | nil => cases t <;> rfl
  | cons p es ih =>
    obtain ⟨k, v⟩ := p
    obtain ⟨s, hs, h1, h2⟩ := h (k, v) (by simp)
    simp only at hs
    subst hs
    have hf : facetOf t.kind (Node.str s, v) = .extra := by
      rw [facetOf_extra_iff]
      simp only [isExtra, Bool.and_eq_true, Bool.not_eq_true', List.contains_eq_mem,
        decide_eq_false_iff_not, Bool.or_eq_true]
      refine ⟨h1, ?_⟩
      rcases h2 with h2 | h2
      · exact .inl h2
      · right
        cases hst : startsWith '(' (Node.str s)
        · rfl
        · refine absurd ?_ h2.2
          simpa [startsWith, Node.str, Node.isStr, Node.value] using hst
    have hstep : t.step X (Node.str s) v .extra = .ok (t.setExtra (t.extra.put (.str s) v)) := by
      rw [step_extra]
      rw [if_neg]
      · rfl
      · rcases h2 with h2 | h2
        · simp [h2]
        · simp [Node.str, Node.value, h2.1]
    show (assign X (X.ofKey (.str s), v) t).bind (assignAll X (asPairs X es)) = _
    rw [hX.ofKey_str, assign_eq, hf, hstep, Res.bind_ok, ih]
    · cases t <;> rfl
    · intro q hq
      have := h q (by simp [hq])
      cases t <;> exact this

/-- Annotations read back, for extended types. -/
theorem read_anns (es : List (String × Ann)) (g : Hdr) (b : Body) (fs ps it)
    (h : ∀ a ∈ es, a.1.toList.head? = some '(' ∧ a.2.omap = false ∧ Distinct a.2.ents) :
    assignAll X (asPairs X (es.map fun e => (Scalar.str e.1, renderStrMap id e.2)))
        (.ext g b fs ps it) =
      .ok (.ext { g with annotations :=
        (g.annotations.putAll (es.map fun e => (e.1, (⟨e.2.ents, true⟩ : Ann)))) } b fs ps it) := by
  induction es generalizing g with
  | nil => rfl
  | cons a es ih =>
    obtain ⟨a1, a2, a3⟩ := h a (by simp)
    have hf : facetOf b.kind (Node.str a.1, renderStrMap id a.2) = .annotations := by
      rw [facetOf_annotations_iff]
      exact ⟨isBasic_ext b, by simp [startsWith, Node.str, Node.isStr, Node.value, a1]⟩
    show (assign X (X.ofKey (.str a.1), _) _).bind (assignAll X (asPairs X _)) = _
    rw [hX.ofKey_str, assign_eq]
    rw [show (DT.ext g b fs ps it).kind = b.kind from rfl, hf, step_annotations,
      loadAnn_render a2 a3, Res.map_ok, Res.bind_ok]
    exact ih _ fun y hy => h y (by simp [hy])

omit hX in
theorem ext_names (b : Body) : (∀ s ∈ ["displayName", "description", "type", "required", "facets",
    "xml", "enum", "example", "examples"], (facetNames b.kind).contains s = true) := by
  cases b <;> (simp only [Body.kind]; decide)

/-- All entries of an extended type read back. -/
theorem read_ext {h : Hdr} {b : Body} (hw : WritableHdr b.kind h) (hb : WritableBody b)
    (facets props items : Option Node)
    (fs' : OM String (OM String DT)) (ps' : OM String DT) (it' : Option DT)
    (hf0 : facets = none → fs' = OM.empty true)
    (hf1 : ∀ n, facets = some n → loadFacets X n (OM.empty true) = .ok fs')
    (hp0 : props = none → ps' = OM.empty false)
    (hp1 : ∀ n, props = some n → b.kind = .object ∧ loadProps X n (OM.empty false) = .ok ps')
    (hi0 : items = none → it' = none)
    (hi1 : ∀ n, items = some n → b.kind = .array ∧ (hat X n).map some = .ok it') :
    assignAll X (asPairs X (dtEnts X h b facets props items))
      (.ext { Hdr.new b.kind with schema := h.schema } (freshBody b) (OM.empty true)
        (OM.empty false) none) = .ok (.ext (Spec.Hdr.canon h) b fs' ps' it') := by
  have hfk : (freshBody b).kind = b.kind := freshBody_kind b
  have fo : ∀ (s : String) (f : Facet) (v : Node) (c : Body), c.kind = b.kind →
      (facetNames b.kind).contains s = true →
      facetNamed.lookup s = some f → facetOf c.kind (Node.str s, v) = f := by
    intro s f v c hc h1 h2
    rw [hc]
    exact facetOf_eq rfl h1 h2
  have nm := ext_names b
  simp only [List.mem_cons, List.not_mem_nil, or_false, forall_eq_or_imp, forall_eq] at nm
  obtain ⟨n1, n2, n3, n4, n5, n6, n7, n8, n9⟩ := nm
  have hE := hw.extra.2
  rw [extraWithDefault_eq] at hE
  simp only [dtEnts, Hdr.headEnts, Hdr.reqEnts, Hdr.tailEnts, asPairs_append, List.append_assoc]
  -- default
  refine chain (read_extra hX _ _ (fun p hp => by
    show ∃ s, p.1 = .str s ∧ s ∉ facetNames (freshBody b).kind ∧
      (isBasic (freshBody b).kind = true ∨ PlainKey s)
    rw [hfk]
    exact hE p (List.mem_append_left _ hp))) ?_
  simp only [DT.setExtra, DT.extra]
  generalize hx1 : (OM.putAll _ (OM.optEnt (Scalar.str "default") h.dflt)) = x1
  refine chain (read_enc hX (f := .displayName) Node.str h.displayName
    (fun o => .ext { Hdr.new b.kind with schema := h.schema, extra := x1, displayName := o } _ _ _ _)
    (fun v => fo _ _ v _ hfk n1 rfl) rfl (fun s _ => by rw [step_displayName]; rfl)) ?_
  refine chain (read_enc hX (f := .description) Node.str h.description
    (fun o => .ext { Hdr.new b.kind with
      schema := h.schema, extra := x1, displayName := h.displayName, description := o } _ _ _ _)
    (fun v => fo _ _ v _ hfk n2 rfl) rfl (fun s _ => by rw [step_description]; rfl)) ?_
  refine chain (read_opt hX (k := "type") (f := .type) (o := some (Node.str h.schema))
    (u := .ext { Hdr.new b.kind with
      schema := h.schema, extra := x1, displayName := h.displayName,
      description := h.description } _ _ _ _)
    (fun v => fo _ _ v _ hfk n3 rfl) (fun h => by cases h)
    (fun v hv => by cases hv; rw [step_type]; rfl)) ?_
  refine chain (read_extra hX _ _ (fun p hp => by
    show ∃ s, p.1 = .str s ∧ s ∉ facetNames (freshBody b).kind ∧
      (isBasic (freshBody b).kind = true ∨ PlainKey s)
    rw [hfk]
    exact hE p (List.mem_append_right _ hp))) ?_
  simp only [DT.setExtra, DT.extra]
  have hx2 : x1.putAll h.extra.ents = ⟨extraWithDefault h, true⟩ := by
    rw [← hx1, ← OM.putAll_append, ← extraWithDefault_eq]
    exact putAll_distinct _ hw.extra.1
  rw [hx2]
  refine chain (read_opt hX (f := .required)
    (u := .ext { Hdr.new b.kind with
      schema := h.schema, extra := ⟨extraWithDefault h, true⟩, displayName := h.displayName,
      description := h.description, required := h.required } _ _ _ _)
    (fun v => fo _ _ v _ hfk n4 rfl)
    (fun hn => by
      have : h.required = true := by
        cases h' : h.required
        · rw [h'] at hn; cases hn
        · rfl
      rw [this]; rfl)
    (fun v hv => by
      have : h.required = false ∧ v = X.ofBool false := by
        cases h' : h.required
        · rw [h'] at hv; cases hv; exact ⟨rfl, rfl⟩
        · rw [h'] at hv; cases hv
      rw [this.1, this.2, step_required, asBool_ofBool hX]; rfl)) ?_
  refine chain (read_anns hX h.annotations.ents _ _ _ _ _ hw.annotations.2) ?_
  have hann : (Hdr.new b.kind).annotations.putAll
      (h.annotations.ents.map fun e => (e.1, (⟨e.2.ents, true⟩ : Ann))) =
      canonAnns true h.annotations := by
    have : Distinct (h.annotations.ents.map fun e => (e.1, (⟨e.2.ents, true⟩ : Ann))) := by
      have := hw.annotations.1
      unfold Distinct at this ⊢
      rwa [List.map_map]
    exact putAll_distinct _ this
  simp only
  rw [hann]
  refine chain (read_opt hX (f := .facets) (u := .ext _ _ fs' _ _)
    (fun v => fo _ _ v _ hfk n5 rfl) (fun hn => by rw [hf0 hn])
    (fun v hv => by
      rw [step_facets, show Spec.facets (DT.ext _ _ (OM.empty true) _ _) = OM.empty true from rfl,
        hf1 v hv]
      rfl)) ?_
  refine chain (read_enc hX (f := .xml) XML.toYAML h.xml
    (fun o => .ext { Hdr.new b.kind with
      schema := h.schema, extra := ⟨extraWithDefault h, true⟩, displayName := h.displayName,
      description := h.description, required := h.required,
      annotations := canonAnns true h.annotations, xml := o.map fun _ => XML.new } _ _ _ _)
    (fun v => fo _ _ v _ hfk n6 rfl) rfl (fun s _ => by rw [step_xml]; rfl)) ?_
  refine chain (read_body hX hb props items _ _ ps' it' hp0 hp1 hi0 hi1) ?_
  refine chain (read_enc hX (f := .enum) (renderList (Val.render X)) h.enum
    (fun o => .ext { Hdr.new b.kind with
      schema := h.schema, extra := ⟨extraWithDefault h, true⟩, displayName := h.displayName,
      description := h.description, required := h.required,
      annotations := canonAnns true h.annotations, xml := h.xml.map fun _ => XML.new,
      enum := match o with
        | some [] => none
        | o => o } _ _ _ _)
    (fun v => fo _ _ v _ rfl n7 rfl) rfl (fun s hs => by
      rw [step_enum]
      have : loadEnum X b.kind none (renderList (Val.render X) s) = _ :=
        loadEnum_render hX (hw.enum s hs)
      show (loadEnum X b.kind none (renderList (Val.render X) s)).map _ = _
      rw [this]
      rfl)) ?_
  refine chain (read_enc hX (f := .example) (Example.toYAML X) h.example
    (fun o => .ext { Hdr.new b.kind with
      schema := h.schema, extra := ⟨extraWithDefault h, true⟩, displayName := h.displayName,
      description := h.description, required := h.required,
      annotations := canonAnns true h.annotations, xml := h.xml.map fun _ => XML.new,
      enum := match h.enum with
        | some [] => none
        | o => o
      «example» := o.map canonExample } _ _ _ _)
    (fun v => fo _ _ v _ rfl n8 rfl) rfl (fun e he => by
      rw [step_example]
      obtain ⟨h1, h2⟩ := hw.example e he
      have : loadExample X b.kind (e.toYAML X) = .ok (canonExample e) := by
        have h3 : exampleSortingHat b.kind = .ok (Example.new b.kind) := by
          cases b <;> first | rfl | exact absurd rfl h1
        rw [loadExample, h3]
        exact example_render hX h2
      show (loadExample X b.kind (e.toYAML X)).map _ = _
      rw [this]
      rfl)) ?_
  have hcd : Distinct (h.examples.ents.map fun e => (e.1, canonExample e.2)) := by
    have := hw.examplesDistinct
    unfold Distinct at this ⊢
    rwa [List.map_map]
  refine read_dec hX (f := .examples) _ _ _ (fun v => fo _ _ v _ rfl n9 rfl) (fun hn => ?_)
    (fun hp => ?_)
  · have : h.examples.ents = [] := by
      simpa [OM.len, List.length_eq_zero_iff] using hn
    simp only [Spec.Hdr.canon, Hdr.new, this]
    rfl
  · rw [step_examples]
    have ho : h.examples.omap = false := hw.examples (fun h0 => by
      simp [OM.len, h0] at hp)
    have := loader_render (g := fun v => (Example.new b.kind).unmarshal X v)
      (vn := Example.toYAML X) (c := canonExample) h.examples.ents
      (OM.empty false : OM String Example)
      (fun e he => example_render hX (hw.examplesEach e he))
    have h2 : loadExamples X b.kind (OM.empty false) (renderStrMap (Example.toYAML X) h.examples) =
        .ok ⟨h.examples.ents.map fun e => (e.1, canonExample e.2), false⟩ := by
      rw [← putAll_distinct false hcd]
      unfold renderStrMap renderPairs
      rw [ho]
      exact this
    show (loadExamples X b.kind (OM.empty false) (renderStrMap (Example.toYAML X) h.examples)).map
      _ = _
    rw [h2]
    rfl

/-- The written form of a type as entries. -/
theorem hat_finish (A B : List (Scalar × Node)) (s : String)
    (hA : ∀ p ∈ A, ∃ k, p.1 = .str k ∧ k ≠ "type" ∧ k ≠ "schema") :
    hat X (finish X ⟨A ++ ((.str "type", .str s) :: B), false⟩) =
      assignAll X (asPairs X (A ++ ((.str "type", .str s) :: B))) (typeToKind s) := by
  unfold finish
  split
  · rename_i h
    have hl : A = [] ∧ B = [] := by
      have := h.1
      simp only [OM.len, List.length_append, List.length_cons] at this
      exact ⟨List.length_eq_zero_iff.mp (by omega), List.length_eq_zero_iff.mp (by omega)⟩
    obtain ⟨rfl, rfl⟩ := hl
    show hat X (Node.str s) = (assign X (X.ofKey (.str "type"), Node.str s) (typeToKind s)).bind _
    rw [hX.ofKey_str, assign_eq, facetOf_type rfl, step_type]
    show Res.ok (typeToKind s) = .ok ((typeToKind s).setSchema s)
    have : (typeToKind s).setSchema s = typeToKind s := by
      rw [typeToKind_eq]
      cases DT.new (classify s) <;> rfl
    rw [this]
  · show hat X (.map (asPairs X _)) = _
    unfold hat
    have hs : ∀ (A : List (Scalar × Node)) (p i : Bool),
        (∀ p ∈ A, ∃ k, p.1 = .str k ∧ k ≠ "type" ∧ k ≠ "schema") →
        ∃ p' i', siftScan (asPairs X (A ++ ((.str "type", .str s) :: B))) p i =
          (some (.str s), p', i') := by
      intro A
      induction A with
      | nil =>
        intro p i _
        refine ⟨p, i, ?_⟩
        show siftScan ((X.ofKey (.str "type"), _) :: _) p i = _
        rw [hX.ofKey_str]
        simp [siftScan, Node.str, Node.value]
      | cons a A ih =>
        intro p i ha
        obtain ⟨k, h1, h2, h3⟩ := ha a (by simp)
        show ∃ p' i', siftScan ((X.ofKey a.1, a.2) :: asPairs X (A ++ _)) p i = _
        rw [h1, hX.ofKey_str]
        unfold siftScan
        rw [if_neg (by simp [Node.str, Node.value, h2, h3])]
        exact ih _ _ fun q hq => ha q (by simp [hq])
    obtain ⟨p', i', h⟩ := hs A false false hA
    have : siftType (asPairs X (A ++ ((.str "type", .str s) :: B))) = .ok (typeToKind s) := by
      unfold siftType
      rw [h]
      simp [Node.str, Node.isStr, Node.value]
    rw [this]
    rfl

/-- The written form of an extended type reads back. -/
theorem hat_ext {h : Hdr} {b : Body} (hw : WritableHdr b.kind h) (hb : WritableBody b)
    (facets props items : Option Node)
    (fs' : OM String (OM String DT)) (ps' : OM String DT) (it' : Option DT)
    (hf0 : facets = none → fs' = OM.empty true)
    (hf1 : ∀ n, facets = some n → loadFacets X n (OM.empty true) = .ok fs')
    (hp0 : props = none → ps' = OM.empty false)
    (hp1 : ∀ n, props = some n → b.kind = .object ∧ loadProps X n (OM.empty false) = .ok ps')
    (hi0 : items = none → it' = none)
    (hi1 : ∀ n, items = some n → b.kind = .array ∧ (hat X n).map some = .ok it') :
    hat X (finish X (marshalDT X h b facets props items)) =
      .ok (.ext (Spec.Hdr.canon h) b fs' ps' it') := by
  rw [marshalDT_eq, putAll_distinct _ (dtEnts_distinct facets props items hw.clean)]
  have hsplit : dtEnts X h b facets props items =
      (OM.optEnt (.str "default") h.dflt ++ (OM.optEnt (.str "displayName") (h.displayName.map .str)
        ++ OM.optEnt (.str "description") (h.description.map .str))) ++
      ((.str "type", .str h.schema) :: (h.extra.ents ++ (h.reqEnts X ++
        (annEnts h.annotations ++ h.tailEnts X b facets props items)))) := by
    simp [dtEnts, Hdr.headEnts]
  rw [hsplit, hat_finish hX _ _ _ ?_, ← hsplit, typeToKind_eq, hw.schema, new_body]
  · exact read_ext hX hw hb facets props items fs' ps' it' hf0 hf1 hp0 hp1 hi0 hi1
  · intro p hp
    have hk : p.1 ∈ [Scalar.str "default"] ++ ([Scalar.str "displayName"] ++
        [Scalar.str "description"]) := by
      have := List.mem_map_of_mem (f := Prod.fst) hp
      simp only [List.map_append] at this
      exact ((optEnt_keys (Scalar.str "default") h.dflt).append
        ((optEnt_keys (Scalar.str "displayName") _).append
          (optEnt_keys (Scalar.str "description") _))).subset this
    simp only [List.cons_append, List.nil_append, List.mem_cons, List.not_mem_nil, or_false] at hk
    rcases hk with hk | hk | hk <;> exact ⟨_, hk, by decide, by decide⟩

end Steps

/-! ### Nested types -/

theorem canonEnts_eq (es : List (String × DT)) : canonEnts es = es.map fun e => (e.1, canon e.2) := by
  induction es with
  | nil => rfl
  | cons e es ih => rw [canonEnts, ih]; obtain ⟨k, t⟩ := e; rw [canonEnt]; rfl

theorem canonFacetEnts_eq (es : List (String × OM String DT)) :
    canonFacetEnts es = es.map fun e => (e.1, canonTypes true e.2) := by
  induction es with
  | nil => rfl
  | cons e es ih => rw [canonFacetEnts, ih]; obtain ⟨k, t⟩ := e; rw [canonFacetEnt]; rfl

theorem typeEnts_eq (X : Xyml) (es : List (String × DT)) :
    typeEnts X es = es.map fun e => (Node.str e.1, e.2.toYAML X) := by
  induction es with
  | nil => rfl
  | cons e es ih => rw [typeEnts, ih]; obtain ⟨k, t⟩ := e; rw [typeEnt]; rfl

theorem facetEnts_eq (X : Xyml) (es : List (String × OM String DT)) :
    facetEnts X es = es.map fun e => (Node.str e.1, typeMapNode X e.2) := by
  induction es with
  | nil => rfl
  | cons e es ih => rw [facetEnts, ih]; obtain ⟨k, t⟩ := e; rw [facetEnt]; rfl

theorem distinct_canon {V W : Type} {c : V → W} {es : List (String × V)} (h : Distinct es) :
    Distinct (es.map fun e => (e.1, c e.2)) := by
  unfold Distinct at h ⊢
  rwa [List.map_map]

theorem canon_isProperty (t : DT) : (canon t).isProperty = t.isProperty := by
  cases t <;> rfl

section
variable {X : Xyml}

theorem loadTypesL_render (es : List (String × DT)) (m : OM String DT)
    (h : ∀ e ∈ es, hat X (e.2.toYAML X) = .ok (canon e.2)) :
    loadTypesL X (typeEnts X es) m = .ok (m.putAll (es.map fun e => (e.1, canon e.2))) := by
  induction es generalizing m with
  | nil => rfl
  | cons e es ih =>
    unfold typeEnts loadTypesL
    have : loadType X (typeEnt X e) m = .ok (m.put e.1 (canon e.2)) := by
      obtain ⟨k, t⟩ := e
      unfold typeEnt loadType
      rw [h (k, t) (by simp)]
      rfl
    rw [this, Res.bind_ok, ih _ fun x hx => h x (by simp [hx])]
    rfl

theorem loadPropsL_render (es : List (String × DT)) (m : OM String DT)
    (h : ∀ e ∈ es, hat X (e.2.toYAML X) = .ok (canon e.2))
    (hp : ∀ e ∈ es, e.2.isProperty = true) :
    loadPropsL X (typeEnts X es) m = .ok (m.putAll (es.map fun e => (e.1, canon e.2))) := by
  induction es generalizing m with
  | nil => rfl
  | cons e es ih =>
    unfold typeEnts loadPropsL
    have : loadProp X (typeEnt X e) m = .ok (m.put e.1 (canon e.2)) := by
      have hpe := hp e (by simp)
      obtain ⟨k, t⟩ := e
      unfold typeEnt loadProp
      rw [h (k, t) (by simp)]
      show (if (canon t).isProperty then _ else _) = _
      rw [canon_isProperty, if_pos hpe]
      rfl
    rw [this, Res.bind_ok, ih _ (fun x hx => h x (by simp [hx])) fun x hx => hp x (by simp [hx])]
    rfl

theorem loadFacetsL_render (es : List (String × OM String DT)) (m : OM String (OM String DT))
    (h : ∀ f ∈ es, loadTypes X (typeMapNode X f.2) (OM.empty true) = .ok (canonTypes true f.2)) :
    loadFacetsL X (facetEnts X es) m =
      .ok (m.putAll (es.map fun e => (e.1, canonTypes true e.2))) := by
  induction es generalizing m with
  | nil => rfl
  | cons e es ih =>
    unfold facetEnts loadFacetsL
    have : loadFacet X (facetEnt X e) m = .ok (m.put e.1 (canonTypes true e.2)) := by
      obtain ⟨k, t⟩ := e
      unfold facetEnt loadFacet
      rw [h (k, t) (by simp)]
      rfl
    rw [this, Res.bind_ok, ih _ fun x hx => h x (by simp [hx])]
    rfl

/-- **Round trip of a data type.** -/
theorem hat_toYAML (hX : Lawful X) {t : DT} (h : Writable t) : hat X (t.toYAML X) = .ok (canon t) := by
  induction h with
  | @nil x hx =>
    have hd : Distinct ((Scalar.str "type", Node.str "nil") :: x.ents) := by
      unfold Distinct
      simp only [List.map_cons, List.nodup_cons, List.mem_map, not_exists, not_and]
      refine ⟨?_, hx.1⟩
      intro p hp hk
      obtain ⟨s, h1, h2, _⟩ := hx.2 p hp
      rw [h1] at hk
      cases hk
      exact h2 (by decide)
    unfold DT.toYAML marshalBase
    rw [show ((OM.empty false).put (Scalar.str "type") (if false = true then
      Node.scalar "!include" "nil" else Node.str "nil")).putAll x.ents =
      (OM.empty false).putAll ((Scalar.str "type", Node.str "nil") :: x.ents) from rfl,
      putAll_distinct _ hd]
    have := hat_finish hX [] x.ents "nil" (by simp)
    rw [List.nil_append] at this
    rw [this]
    show assignAll X (asPairs X ([(Scalar.str "type", Node.str "nil")] ++ x.ents)) _ = _
    rw [asPairs_append]
    refine chain (u := typeToKind "nil") ?_ ?_
    · show (assign X (X.ofKey (.str "type"), Node.str "nil") _).bind _ = _
      rw [hX.ofKey_str]
      rfl
    · rw [read_extra hX _ _ (by
        show ∀ p ∈ x.ents, ∃ s, p.1 = .str s ∧ s ∉ facetNames .nil ∧ _
        intro p hp
        obtain ⟨s, h1, h2, h3⟩ := hx.2 p hp
        exact ⟨s, h1, h2, h3⟩)]
      show Res.ok (DT.basic false "nil" ((OM.empty true).putAll x.ents)) = _
      rw [putAll_distinct _ hx.1]
      rfl
  | incl => rfl
  | @ext h b fs ps it hw hb hf1 hf2 hf3 hf4 hp1 hp2 hp3 hp4 hi1 hi2 ihf ihp ihi =>
    obtain ⟨fes, fb⟩ := fs
    obtain ⟨pes, pb⟩ := ps
    simp only at hf1 hf2 hf3 hp1 hp2 hp3 ihf ihp
    unfold DT.toYAML canon
    refine hat_ext hX hw hb _ _ _ _ _ _ ?_ ?_ ?_ ?_ ?_ ?_
    · intro h0
      have : fes = [] := by
        unfold facetsNode at h0
        by_cases hl : fes.length > 0
        · rw [if_pos hl] at h0; cases h0
        · exact List.length_eq_zero_iff.mp (by omega)
      subst this; rfl
    · intro n hn
      unfold facetsNode at hn
      by_cases hl : fes.length > 0
      · rw [if_pos hl] at hn
        cases hn
        have : fb = false := hf1 (by rintro rfl; simp at hl)
        subst this
        show loadFacetsL X (facetEnts X fes) (OM.empty true) = _
        rw [loadFacetsL_render]
        · rw [putAll_distinct _ (distinct_canon hf2), canonFacets, canonFacetEnts_eq]
        · intro f hf
          obtain ⟨h1, h2⟩ := hf3 f hf
          have h3 := fun e he => ihf f hf e he
          obtain ⟨k, tes, tb⟩ := f
          simp only at h1 h2 h3
          subst h1
          show loadTypesL X (typeEnts X tes) (OM.empty true) = _
          rw [loadTypesL_render _ _ h3, putAll_distinct _ (distinct_canon h2), canonTypes,
            canonEnts_eq]
      · rw [if_neg hl] at hn; cases hn
    · intro h0
      have : pes = [] := by
        unfold propsNode at h0
        by_cases hl : pes.length > 0
        · rw [if_pos hl] at h0; cases h0
        · exact List.length_eq_zero_iff.mp (by omega)
      subst this; rfl
    · intro n hn
      unfold propsNode at hn
      by_cases hl : pes.length > 0
      · rw [if_pos hl] at hn
        cases hn
        obtain ⟨hk, this⟩ := hp1 (by rintro rfl; simp at hl)
        subst this
        refine ⟨hk, ?_⟩
        show loadPropsL X (typeEnts X pes) (OM.empty false) = _
        rw [loadPropsL_render _ _ (fun e he => ihp e he) hp3, putAll_distinct _ (distinct_canon hp2),
          canonTypes, canonEnts_eq]
      · rw [if_neg hl] at hn; cases hn
    · intro h0
      cases it with
      | none => rfl
      | some t => cases h0
    · intro n hn
      cases it with
      | none => cases hn
      | some t =>
        cases hn
        refine ⟨hi1 (by simp), ?_⟩
        rw [ihi t rfl]
        rfl

theorem Spec.PlainHdr.writable {kd : Kind} {h : Hdr} (hp : PlainHdr kd h) : WritableHdr kd h where
  schema := hp.schema
  extra := by unfold extraWithDefault; rw [hp.dflt]; exact hp.extra
  annotations := by rw [hp.annotations]; exact ⟨List.nodup_nil, fun e he => by cases he⟩
  enum := fun l hl => (hp.enum l hl).2
  «example» := fun e he => by rw [hp.example] at he; cases he
  examples := fun he => by rw [hp.examples] at he; exact absurd rfl he
  examplesDistinct := by rw [hp.examples]; exact List.nodup_nil
  examplesEach := fun e he => by rw [hp.examples] at he; cases he

theorem Spec.PlainHdr.canon {kd : Kind} {h : Hdr} (hp : PlainHdr kd h) : Spec.Hdr.canon h = h := by
  obtain ⟨sch, ⟨ex, exf⟩, dn, de, an, xm, re, df, en, exa, exs⟩ := h
  obtain ⟨_, _, h1, h2, h3, h4, h5, h6, h7⟩ := hp
  simp only at h1 h2 h3 h4 h5 h6 h7
  subst h1 h2 h3 h4 h6 h7
  simp only [Spec.Hdr.canon, extraWithDefault, canonAnns, Option.map_none, List.map_nil]
  congr 1
  cases en with
  | none => rfl
  | some l =>
    cases l with
    | nil => exact absurd rfl (h5 [] rfl).1
    | cons x l => rfl

theorem Spec.Plain.writable {t : DT} (h : Plain t) : Writable t := by
  induction h with
  | nil h => exact .nil h
  | incl => exact .incl
  | ext h1 h2 h3 h4 h5 h6 h7 h8 ih1 ih2 =>
    exact .ext h1.writable h2 (fun h => absurd rfl h) List.nodup_nil (fun f hf => by cases hf)
      (fun f hf => by cases hf) (fun h => ⟨h3 h, rfl⟩) h4 h5 ih1 h7 ih2

theorem Spec.Plain.canon {t : DT} (h : Plain t) : Spec.canon t = t := by
  induction h with
  | nil h => rfl
  | incl => rfl
  | @ext h b ps it h1 h2 h3 h4 h5 h6 h7 h8 ih1 ih2 =>
    rw [Spec.canon, h1.canon, canonFacets, canonFacetEnts, canonTypes, canonEnts_eq]
    have e1 : (ps.map fun e => (e.1, Spec.canon e.2)) = ps := by
      have : ∀ l : List (String × DT), (∀ e ∈ l, Spec.canon e.2 = e.2) →
          (l.map fun e => (e.1, Spec.canon e.2)) = l := by
        intro l hl
        conv_rhs => rw [← List.map_id l]
        apply List.map_congr_left
        intro e he
        rw [hl e he]
        rfl
      exact this ps ih1
    have e2 : canonItems it = it := by
      cases it with
      | none => rfl
      | some t => rw [canonItems, ih2 t rfl]
    rw [e1, e2]

end

end Verif.Doc
