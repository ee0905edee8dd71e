import Verif.Props.BuilderRoundTrip

/-! # C59: unsetting properties or examples of a type and adding some again -/

namespace Verif.Props
open Verif Verif.Doc Verif.Doc.Spec

private theorem facet_of_name {kd : Kind} {name : String} {v : Node} {f : Facet}
    (hn : name ∈ facetNames kd) (hl : facetNamed.lookup name = some f) :
    facetOf kd (Node.str name, v) = f :=
  facetOf_eq rfl (by rw [List.contains_iff_mem]; exact hn) hl

private theorem examples_named {kd : Kind} (hb : isBasic kd = false) :
    "examples" ∈ facetNames kd := by
  cases kd <;> first | (cases hb; done) | decide

/-- C59: false that the map a type was given back by `Unset` behaves like the one it was made with.
Properties in an ordered-output map never survive: if what is written can be read at all, the
result is not an object type and has no properties. -/
theorem C59_ordered_properties_false (X : Xyml) (hX : Lawful X) (h : Hdr) (o : ObjectF)
    (fs : OM String (OM String DT)) (ps : OM String DT) (it : Option DT) (ho : ps.omap = true)
    (hne : ps.ents ≠ []) (t' : DT)
    (hr : hat X ((DT.ext h (.object o) fs ps it).toYAML X) = .ok t') :
    t'.kind ≠ .object := by
  have hf : ∃ ns, propsNode X ps = some (.seq omapTag ns) := by
    obtain ⟨es, o⟩ := ps
    cases ho
    cases es with
    | nil => exact absurd rfl hne
    | cons e es => exact ⟨_, by unfold propsNode; rfl⟩
  obtain ⟨ns, hns⟩ := hf
  have hA : ∃ A B, (DT.ext h (.object o) fs ps it).ents X =
        A ++ ((.str "properties", .seq omapTag ns) :: B) ∧
      Scalar.str "properties" ∉ B.map Prod.fst := by
    refine ⟨OM.optEnt (.str "default") h.dflt ++ (h.headEnts ++ (h.extra.ents ++ (h.reqEnts X ++
      (annEnts h.annotations ++ (OM.optEnt (.str "facets") (facetsNode X fs) ++
      (OM.optEnt (.str "xml") (h.xml.map XML.toYAML) ++
      (OM.optEnt (.str "additionalProperties")
        (if o.addtlProps then none else some (X.ofBool o.addtlProps)) ++
      (OM.optEnt (.str "minProperties") (o.minProps.map fun n : Nat => X.ofInt n) ++
      (OM.optEnt (.str "maxProperties") (o.maxProps.map fun n : Nat => X.ofInt n) ++
      (OM.optEnt (.str "discriminator") (o.discrim.map .str) ++
      OM.optEnt (.str "discriminatorValue") o.discrimVal)))))))))),
      OM.optEnt (.str "enum") (h.enum.map (renderList (Val.render X))) ++
      (OM.optEnt (.str "example") (h.example.map (Example.toYAML X)) ++
      OM.optEnt (.str "examples") (if h.examples.len > 0 then
      some (renderStrMap (Example.toYAML X) h.examples) else none)), ?_, ?_⟩
    · simp only [DT.ents, dtEnts, Hdr.tailEnts, Body.ents, hns, List.append_assoc]
      rfl
    · simp only [List.map_append, List.mem_append, not_or]
      refine ⟨fun hm => ?_, fun hm => ?_, fun hm => ?_⟩ <;>
        (have := (optEnt_keys _ _).subset hm; simp at this)
  obtain ⟨A, B, hE, hB⟩ := hA
  obtain ⟨v, hv, hread⟩ := reread_suffix hX hE (k := "properties") (by simp) (by decide) hr
  have hv' : v = .seq omapTag ns := by
    rcases List.mem_cons.mp hv with hv | hv
    · cases hv; rfl
    · exact absurd (List.mem_map_of_mem (f := Prod.fst) hv) hB
  subst hv'
  intro hk
  obtain ⟨s, x, hs, hstep⟩ := hread .properties (facet_of_name (by rw [hk]; decide) (by decide))
  have hstep : loadProps X (.seq omapTag ns) (properties s) = .ok x := hstep
  unfold loadProps at hstep
  cases hstep

/-- Concrete case: an object type renamed to `any` is read back, as a type without properties. -/
example : ∃ t', hat Xyml.std ((DT.ext { Hdr.new .object with schema := "any" }
      (.object ⟨none, none, true, none, none⟩) (OM.empty true) ⟨[("a", DT.new .string)], true⟩
      none).toYAML Xyml.std) = .ok t' ∧ t'.kind = .any ∧ (properties t').ents = [] :=
  ⟨_, rfl, rfl, rfl⟩

/-- C59: the same for examples: they never survive in an ordered-output map, and only a nil or
include type can come back. -/
theorem C59_ordered_examples_false (X : Xyml) (hX : Lawful X) (h : Hdr) (b : Body)
    (fs : OM String (OM String DT)) (ps : OM String DT) (it : Option DT)
    (ho : h.examples.omap = true) (hne : h.examples.ents ≠ []) (t' : DT)
    (hr : hat X ((DT.ext h b fs ps it).toYAML X) = .ok t') : isBasic t'.kind = true := by
  have hlen : h.examples.len > 0 := List.length_pos_iff.mpr hne
  have hE : (DT.ext h b fs ps it).ents X =
      (OM.optEnt (.str "default") h.dflt ++ (h.headEnts ++ (h.extra.ents ++ (h.reqEnts X ++
      (annEnts h.annotations ++ (OM.optEnt (.str "facets") (facetsNode X fs) ++
      (OM.optEnt (.str "xml") (h.xml.map XML.toYAML) ++
      (b.ents X (propsNode X ps) (itemsNode X it) ++
      (OM.optEnt (.str "enum") (h.enum.map (renderList (Val.render X))) ++
      OM.optEnt (.str "example") (h.example.map (Example.toYAML X))))))))))) ++
      [(.str "examples", renderStrMap (Example.toYAML X) h.examples)] := by
    simp only [DT.ents, dtEnts, Hdr.tailEnts, hlen, if_true, List.append_assoc]
    rfl
  obtain ⟨v, hv, hread⟩ := reread_suffix hX hE (k := "examples") (by simp) (by decide) hr
  cases List.mem_singleton.mp hv
  cases hb : isBasic t'.kind with
  | true => rfl
  | false =>
    obtain ⟨s, x, hs, hstep⟩ := hread .examples (facet_of_name (examples_named hb) (by decide))
    have hstep : loadExamples X t'.kind (examplesMap s)
      (renderStrMap (Example.toYAML X) h.examples) = .ok x := hstep
    unfold loadExamples renderStrMap renderPairs at hstep
    rw [ho] at hstep
    cases hstep

/-- Concrete case: a string type renamed to `nil` is read back, as a nil type. -/
example : ∃ t', hat Xyml.std ((DT.ext { Hdr.new .string with
        schema := "nil", examples := ⟨[("a", Example.new .string)], true⟩ }
      (.string ⟨none, 0, none⟩) (OM.empty true) (OM.empty false) none).toYAML Xyml.std) = .ok t' ∧
    t'.kind = .nil :=
  ⟨_, rfl, rfl⟩

/-- Adding entries one by one through the map a getter returns. -/
def addProps (es : List (String × DT)) : List TypeOp :=
  es.map fun e => .editProperties (·.put e.1 e.2)

/-- The same for examples. -/
def addExamples (es : List (String × Example)) : List TypeOp :=
  es.map fun e => .editExamples (·.put e.1 e.2)

/-- The call that gives the type a fresh map of properties. -/
def ResetsProps (op : TypeOp) : Prop := op = .unsetProperties ∨ op = .setProperties none

/-- The call that gives the type a fresh map of examples. -/
def ResetsExamples (op : TypeOp) : Prop := op = .unsetExamples ∨ op = .setExamples none

private theorem fold_addProps (kd : Kind) (es : List (String × DT)) (m : OM String DT) :
    (addProps es).foldl (typeEffect kd .properties) m = m.putAll es := by
  induction es generalizing m with
  | nil => rfl
  | cons e es ih => exact ih _

private theorem fold_addExamples (kd : Kind) (es : List (String × Example)) (m : OM String Example) :
    (addExamples es).foldl (typeEffect kd .examples) m = m.putAll es := by
  induction es generalizing m with
  | nil => rfl
  | cons e es ih => exact ih _

private theorem putAll_ne_nil {K V : Type} [DecidableEq K] {m : OM K V} {es : List (K × V)}
    (h : es ≠ []) : (m.putAll es).ents ≠ [] := by
  obtain ⟨as, e, rfl⟩ : ∃ as e, es = as ++ [e] :=
    ⟨es.dropLast, es.getLast h, (List.dropLast_append_getLast h).symm⟩
  rw [OM.putAll_append, OM.putAll_cons, OM.putAll_nil]
  simp [OM.put]

/-- C59: false that `UnsetProperties` followed by adding properties is like adding them to a new
type: whatever was done before, whatever is added, and whatever is done to other facets afterwards,
the written form cannot be read back as an object type; when the type's name is still one of an
object type it cannot be read back at all. -/
theorem C59_unset_then_add_properties_false (X : Xyml) (hX : Lawful X) (t u : DT)
    (as bs : List TypeOp) (op : TypeOp) (es : List (String × DT)) (hop : ResetsProps op)
    (hu : t.applyAll (as ++ op :: (addProps es ++ bs)) = some u) (hne : es ≠ [])
    (hb : ∀ o ∈ bs, NotAbout t.kind .properties o) :
    (∀ r, hat X (u.toYAML X) = .ok r → r.kind ≠ .object) ∧
    (∀ h b fs ps it, u = .ext h b fs ps it → CleanHdr .object h → classify h.schema = .object →
      ∀ r, hat X (u.toYAML X) ≠ .ok r) := by
  have hl : look .properties u = (⟨[], true⟩ : OM String DT).putAll es := by
    rw [C57_history t u _ hu .properties, List.foldl_append, List.foldl_cons, List.foldl_append,
      foldl_notAbout hb]
    rcases hop with rfl | rfl <;> exact fold_addProps _ _ _
  have hobj : u.kind = .object := by
    obtain ⟨v, hv, hrest⟩ := applyAll_append.mp hu
    obtain ⟨w, hw, _⟩ := applyAll_cons.mp hrest
    have h1 := C57_kind _ _ _ hu
    have h2 := C57_kind _ _ _ hv
    have h3 := C57_offered v op
    rw [hw] at h3
    rw [h1, ← h2]
    rcases hop with rfl | rfl <;> simpa [offeredBy] using h3.symm
  cases u with
  | basic i s x => cases i <;> cases hobj
  | ext h b fs ps it =>
    cases b <;> first | (cases hobj; done) | skip
    rename_i o
    have hps : ps = (⟨[], true⟩ : OM String DT).putAll es := hl
    have ho : ps.omap = true := by rw [hps, OM.omap_putAll]
    have hn : ps.ents ≠ [] := by rw [hps]; exact putAll_ne_nil hne
    refine ⟨fun r hr => C59_ordered_properties_false X hX h o fs ps it ho hn r hr, ?_⟩
    intro h' b' fs' ps' it' he hc hcl r hr
    cases he
    refine C59_ordered_properties_false X hX h o fs ps it ho hn r hr ?_
    exact (reread_kind X hX h (.object o) fs ps it hc r hr).trans hcl

/-- C59: the same for examples, for a type of any kind. -/
theorem C59_unset_then_add_examples_false (X : Xyml) (hX : Lawful X) (t u : DT)
    (as bs : List TypeOp) (op : TypeOp) (es : List (String × Example)) (hop : ResetsExamples op)
    (hu : t.applyAll (as ++ op :: (addExamples es ++ bs)) = some u) (hne : es ≠ [])
    (hb : ∀ o ∈ bs, NotAbout t.kind .examples o) :
    (∀ r, hat X (u.toYAML X) = .ok r → isBasic r.kind = true) ∧
    (∀ h b fs ps it, u = .ext h b fs ps it → CleanHdr b.kind h → classify h.schema = b.kind →
      ∀ r, hat X (u.toYAML X) ≠ .ok r) := by
  have hl : look .examples u = (⟨[], true⟩ : OM String Example).putAll es := by
    rw [C57_history t u _ hu .examples, List.foldl_append, List.foldl_cons, List.foldl_append,
      foldl_notAbout hb]
    rcases hop with rfl | rfl <;> exact fold_addExamples _ _ _
  have hext : isBasic u.kind = false := by
    obtain ⟨v, hv, hrest⟩ := applyAll_append.mp hu
    obtain ⟨w, hw, _⟩ := applyAll_cons.mp hrest
    have h1 := C57_kind _ _ _ hu
    have h2 := C57_kind _ _ _ hv
    have h3 := C57_offered v op
    rw [hw] at h3
    rw [h1, ← h2]
    rcases hop with rfl | rfl <;> simpa [offeredBy] using h3.symm
  cases u with
  | basic i s x => cases i <;> cases hext
  | ext h b fs ps it =>
    have hps : h.examples = (⟨[], true⟩ : OM String Example).putAll es := hl
    have ho : h.examples.omap = true := by rw [hps, OM.omap_putAll]
    have hn : h.examples.ents ≠ [] := by rw [hps]; exact putAll_ne_nil hne
    refine ⟨fun r hr => C59_ordered_examples_false X hX h b fs ps it ho hn r hr, ?_⟩
    intro h' b' fs' ps' it' he hc hcl r hr
    cases he
    have h1 := C59_ordered_examples_false X hX h b fs ps it ho hn r hr
    rw [(reread_kind X hX h b fs ps it hc r hr).trans hcl, isBasic_ext] at h1
    cases h1

/-- Such histories exist, and the same additions without the `Unset` are read back. -/
example : (∃ u, (DT.new .object).applyAll ([.setDescription "d"] ++ .unsetProperties ::
      (addProps [("name", nameProp)] ++ [.setDiscriminator "k"])) = some u ∧
        hat Xyml.std (u.toYAML Xyml.std) = .err .notMap) ∧
    ∃ u, (DT.new .object).applyAll (addProps [("name", nameProp)]) = some u ∧
      (hat Xyml.std (u.toYAML Xyml.std)).isOk = true :=
  ⟨⟨_, rfl, rfl⟩, ⟨_, rfl, rfl⟩⟩

/-- An example with a description. -/
def sampleExample : Example :=
  { Example.new .string with description := some "greeting", value := some (.str "hello") }

/-- The same for examples. -/
example : (∃ u, (DT.new .string).applyAll ([] ++ .setExamples none ::
      (addExamples [("a", sampleExample)] ++ [])) = some u ∧
        hat Xyml.std (u.toYAML Xyml.std) = .err .notMap) ∧
    ∃ u, (DT.new .string).applyAll (addExamples [("a", sampleExample)]) = some u ∧
      (hat Xyml.std (u.toYAML Xyml.std)).isOk = true :=
  ⟨⟨_, rfl, rfl⟩, ⟨_, rfl, rfl⟩⟩

end Verif.Props
