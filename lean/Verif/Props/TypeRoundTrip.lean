import Verif.Doc.Written

/-! # C26, C29, C30, C39, C49: writing a data type and reading it back -/

namespace Verif.Props
open Verif Verif.Doc Verif.Doc.Spec

/-! ### C26 -/

/-- C26: re-parsing what is written for a data type without examples, annotations, facet
definitions, XML settings and default, whose type matches its kind, gives the same data type. -/
theorem C26_lossless (X : Xyml) (hX : Lawful X) (t : DT) (h : Plain t) :
    hat X (t.toYAML X) = .ok t := by
  rw [hat_toYAML hX h.writable, h.canon]

/-- C26: the same for a type that was parsed. -/
theorem C26_parsed_lossless (X : Xyml) (hX : Lawful X) (n : Node) (t : DT)
    (h : hat X n = .ok t) (hm : Mild t) : hat X (t.toYAML X) = .ok t :=
  C26_lossless X hX t ((hat_parsed hX h).plain hm)

/-- C26: with annotations, examples and facet definitions that are written as plain mappings, XML
settings and a default, re-parsing gives exactly `canon t`. -/
theorem C26_read_back (X : Xyml) (hX : Lawful X) (t : DT) (h : Writable t) :
    hat X (t.toYAML X) = .ok (canon t) := hat_toYAML hX h

example (X : Xyml) (hX : Lawful X) (s : String) :
    hat X ((DT.basic true s (OM.empty false)).toYAML X) =
      .ok (canon (.basic true s (OM.empty false))) :=
  C26_read_back X hX _ .incl

theorem reread_kind (X : Xyml) (hX : Lawful X) (h : Hdr) (b : Body)
    (fs : OM String (OM String DT)) (ps : OM String DT) (it : Option DT)
    (hc : CleanHdr b.kind h) (t' : DT)
    (hr : hat X ((DT.ext h b fs ps it).toYAML X) = .ok t') :
    t'.kind = classify h.schema := by
  rw [toYAML_eq] at hr
  simp only [DT.ents] at hr
  rw [putAll_distinct _ (dtEnts_distinct _ _ _ hc)] at hr
  have hsplit : dtEnts X h b (facetsNode X fs) (propsNode X ps) (itemsNode X it) =
      (OM.optEnt (.str "default") h.dflt ++
        (OM.optEnt (.str "displayName") (h.displayName.map .str) ++
          OM.optEnt (.str "description") (h.description.map .str))) ++
      ((.str "type", .str h.schema) :: (h.extra.ents ++ (h.reqEnts X ++ (annEnts h.annotations ++
        h.tailEnts X b (facetsNode X fs) (propsNode X ps) (itemsNode X it))))) := by
    simp only [dtEnts, Hdr.headEnts, List.append_assoc, List.cons_append, List.nil_append]
  rw [hsplit, hat_finish hX] at hr
  · rw [assignAll_kind hr, (typeToKind_spec _).1]
  · intro p hp
    simp only [List.mem_append] at hp
    rcases hp with hp | hp | hp
    · cases hd : h.dflt with
      | none => rw [hd] at hp; cases hp
      | some d =>
        rw [hd] at hp
        simp only [OM.optEnt, List.mem_singleton] at hp
        exact ⟨"default", by rw [hp], by decide, by decide⟩
    · cases hd : h.displayName with
      | none => rw [hd] at hp; cases hp
      | some d =>
        rw [hd] at hp
        simp only [Option.map_some, OM.optEnt, List.mem_singleton] at hp
        exact ⟨"displayName", by rw [hp], by decide, by decide⟩
    · cases hd : h.description with
      | none => rw [hd] at hp; cases hp
      | some d =>
        rw [hd] at hp
        simp only [Option.map_some, OM.optEnt, List.mem_singleton] at hp
        exact ⟨"description", by rw [hp], by decide, by decide⟩

/-- C26: without the condition on the kind it is false: a type whose `Type()` does not match its
`Kind()` comes back, if at all, with the kind its type names and not with its own. -/
theorem C26_mismatch_false (X : Xyml) (hX : Lawful X) (h : Hdr) (b : Body)
    (fs : OM String (OM String DT)) (ps : OM String DT) (it : Option DT)
    (hc : CleanHdr b.kind h) (hm : classify h.schema ≠ b.kind) (t' : DT)
    (hr : hat X ((DT.ext h b fs ps it).toYAML X) = .ok t') :
    t'.kind = classify h.schema ∧ t'.kind ≠ (DT.ext h b fs ps it).kind := by
  have := reread_kind X hX h b fs ps it hc t' hr
  exact ⟨this, this ▸ hm⟩

/-- An object type with a string property, and an array property of a custom item type. -/
def sampleObject : DT :=
  .ext { Hdr.new .object with description := some "a pair" } (.object ⟨some 1, none, false, some "kind", none⟩)
    ⟨[], true⟩
    ⟨[("first", .ext { Hdr.new .string with required := false, enum := some [.str "x"] }
        (.string ⟨some "^x$", 1, some 5⟩) ⟨[], true⟩ ⟨[], false⟩ none),
      ("second", .ext (Hdr.new .array) (.array ⟨true, 2, 7⟩) ⟨[], true⟩ ⟨[], false⟩
        (some (.ext { Hdr.new .custom with schema := "Money" } .custom ⟨[], true⟩ ⟨[], false⟩ none)))],
      false⟩ none

theorem sampleObject_plain : Plain sampleObject := by
  have hdr : ∀ (kd : Kind) (h : Hdr), classify h.schema = kd → h.extra = ⟨[], true⟩ →
      h.annotations = ⟨[], true⟩ → h.xml = none → h.dflt = none → h.example = none →
      h.examples = ⟨[], false⟩ → (∀ l, h.enum = some l → l ≠ [] ∧ ∀ v ∈ l, FitsEnum kd v) →
      PlainHdr kd h := by
    intro kd h h1 h2 h3 h4 h5 h6 h7 h8
    exact ⟨h1, by rw [h2]; exact ⟨List.nodup_nil, fun _ hp => nomatch hp⟩, by rw [h2], h3, h4, h5,
      h8, h6, h7⟩
  refine .ext (hdr _ _ (by decide) rfl rfl rfl rfl rfl rfl (fun _ h => nomatch h))
    ⟨fun n hn => by cases hn; simp [IsSmall], fun n hn => nomatch hn⟩ (fun _ => rfl)
    (by simp [Distinct]) (by simp [DT.isProperty]) ?_ (fun h => absurd rfl h) (fun _ h => nomatch h)
  intro e he
  simp only [List.mem_cons, List.not_mem_nil, or_false] at he
  rcases he with rfl | rfl
  · refine .ext (hdr _ _ (by decide) rfl rfl rfl rfl rfl rfl ?_)
      ⟨by simp [IsSmall], fun n hn => by cases hn; simp [IsSmall]⟩ (fun h => absurd rfl h)
      List.nodup_nil (fun _ h => nomatch h) (fun _ h => nomatch h) (fun h => absurd rfl h)
      (fun _ h => nomatch h)
    intro l hl
    cases hl
    exact ⟨by simp, fun v hv => by rw [List.mem_singleton] at hv; exact ⟨"x", hv⟩⟩
  · refine .ext (hdr _ _ (by decide) rfl rfl rfl rfl rfl rfl (fun _ h => nomatch h))
      ⟨by simp [IsSmall], by simp [IsSmall]⟩ (fun h => absurd rfl h)
      List.nodup_nil (fun _ h => nomatch h) (fun _ h => nomatch h) (fun _ => rfl) ?_
    intro t ht
    cases ht
    exact .ext (hdr _ _ (by decide) rfl rfl rfl rfl rfl rfl (fun _ h => nomatch h)) trivial
      (fun h => absurd rfl h) List.nodup_nil (fun _ h => nomatch h) (fun _ h => nomatch h)
      (fun h => absurd rfl h) (fun _ h => nomatch h)

example : hat Xyml.std (sampleObject.toYAML Xyml.std) = .ok sampleObject :=
  C26_lossless _ Xyml.std_lawful _ sampleObject_plain

/-- The hypotheses of `C26_parsed_lossless` are met. -/
example : ∃ t, hat Xyml.std (.map [(.str "type", .str "array"), (.str "items", .str "Pet")]) = .ok t ∧
    Mild t ∧ items t ≠ none :=
  ⟨_, rfl, .ext (by decide) ⟨by simp [IsSmall], by simp [IsSmall]⟩ (fun _ h => nomatch h) rfl rfl rfl
    rfl rfl (fun _ h => nomatch h) (fun t ht => by
      cases ht
      exact .ext (by decide) trivial (fun _ h => nomatch h) rfl rfl rfl rfl rfl
        (fun _ h => nomatch h) (fun _ h => nomatch h)), by decide⟩

/-- The hypotheses of `C26_mismatch_false` are met: a string type renamed to `integer`. -/
example : CleanHdr (.string : Kind) { Hdr.new .string with schema := "integer" } ∧
    classify "integer" ≠ .string ∧
    ∃ t', hat Xyml.std ((DT.ext { Hdr.new .string with schema := "integer" } (.string ⟨none, 0, none⟩)
      (OM.empty true) (OM.empty false) none).toYAML Xyml.std) = .ok t' :=
  ⟨⟨List.nodup_nil, fun _ h => (nomatch h), List.nodup_nil, fun _ h => (nomatch h)⟩, by decide,
    _, rfl⟩

/-! ### C49 -/

/-- C49: what the parser guarantees about every data type it returns, at any depth: extra facets
and annotations have distinct keys of the right form, properties belong to objects and items to
arrays, enum elements and examples are of the kind's type, there is no default. -/
theorem C49_parsed (X : Xyml) (hX : Lawful X) (n : Node) (t : DT) (h : hat X n = .ok t) :
    Parsed t := hat_parsed hX h

example : ∃ t, hat Xyml.std (.map [(.str "type", .str "object"), (.str "color", .str "red"),
    (.str "properties", .map [(.str "a", .str "string"), (.str "a", .str "integer")])]) = .ok t ∧
    Parsed t := by
  obtain ⟨t, ht⟩ := Res.isOk_iff.mp (show (hat Xyml.std (.map [(.str "type", .str "object"),
    (.str "color", .str "red"), (.str "properties", .map [(.str "a", .str "string"),
      (.str "a", .str "integer")])])).isOk = true by decide +kernel)
  exact ⟨t, ht, C49_parsed _ Xyml.std_lawful _ _ ht⟩

/-! ### C29 -/

/-- C29: an expanded example without annotations is read back as it was. -/
theorem C29_expanded_partial (X : Xyml) (hX : Lawful X) (kd : Kind) (e : Example)
    (h : WritableExample kd e) (ha : e.annotations = OM.empty false) (hf : e.extra.omap = false) :
    (Example.new kd).unmarshal X (e.toYAML X) = .ok e := by
  rw [example_render hX h]
  congr 1
  unfold canonExample canonAnns
  rw [ha]
  cases e with
  | mk kind dn ds an va st ex =>
    cases ex
    cases hf
    cases ha
    rfl

example : WritableExample .integer
    { Example.new .integer with description := some "one", value := some (.int 1), strict := false } where
  kind := rfl
  expanded := .inr (.inl (by simp))
  value := fun v hv => by cases hv; exact ⟨1, rfl, by decide, by decide⟩
  annotations := ⟨List.nodup_nil, fun _ h => nomatch h⟩
  extra := List.nodup_nil
  extraKeys := fun _ h => nomatch h

/-- Nothing but the value is set. -/
structure OnlyValue (e : Example) : Prop where
  displayName : e.displayName = none
  description : e.description = none
  annotations : e.annotations.ents = []
  extra : e.extra.ents = []
  strict : e.strict = true

theorem onlyValue_panics (X : Xyml) (hX : Lawful X) (kd : Kind) {e : Example} (h : OnlyValue e) :
    (Example.new kd).unmarshal X (e.toYAML X) = .panic .emptyKey := by
  have hexp : e.expand = false := by
    simp [Example.expand, OM.len, h.displayName, h.description, h.annotations, h.extra, h.strict]
  unfold Example.toYAML Example.marshal
  rw [hexp]
  simp only [Bool.false_eq_true, if_false, renderAny, renderPairs, OM.put, OM.empty,
    List.filter_nil, List.nil_append, List.map_cons, List.map_nil, hX.ofKey_str,
    Example.unmarshal, forPairs]
  rfl

/-- C29: false for an example with only a value: reading its written form panics, whatever the
kind and the value. -/
theorem C29_only_value_false (X : Xyml) (hX : Lawful X) (kd : Kind) (e : Example)
    (h : OnlyValue e) : (Example.new kd).unmarshal X (e.toYAML X) = .panic .emptyKey :=
  onlyValue_panics X hX kd h

example : OnlyValue { Example.new .string with value := some (.str "hello") } :=
  ⟨rfl, rfl, rfl, rfl, rfl⟩

/-- A type with the given example. -/
private theorem example_suffix (X : Xyml) (h : Hdr) (b : Body) (fs : OM String (OM String DT))
    (ps : OM String DT) (it : Option DT) (e : Example) (he : h.example = some e) :
    ∃ A, (DT.ext h b fs ps it).ents X = A ++ ((.str "example", e.toYAML X) ::
      OM.optEnt (.str "examples") (if h.examples.len > 0 then
        some (renderStrMap (Example.toYAML X) h.examples) else none)) := by
  refine ⟨OM.optEnt (.str "default") h.dflt ++ (h.headEnts ++ (h.extra.ents ++ (h.reqEnts X ++
    (annEnts h.annotations ++ (OM.optEnt (.str "facets") (facetsNode X fs) ++
    (OM.optEnt (.str "xml") (h.xml.map XML.toYAML) ++
    (b.ents X (propsNode X ps) (itemsNode X it) ++
    OM.optEnt (.str "enum") (h.enum.map (renderList (Val.render X))))))))) ), ?_⟩
  simp only [DT.ents, dtEnts, Hdr.tailEnts, he, Option.map_some, List.append_assoc]
  rfl

private theorem named_facet {kd : Kind} {name : String} {v : Node} {f : Facet}
    (hb : isBasic kd = false) (hn : name ∈ facetNames.common)
    (hl : facetNamed.lookup name = some f) : facetOf kd (Node.str name, v) = f := by
  refine facetOf_eq rfl ?_ hl
  rw [List.contains_iff_mem]
  cases kd <;> first | (cases hb; done) | exact List.mem_append_left _ hn | exact hn

/-- C29: no type whose example has only a value can be read back with an example; whatever else
the type contains. -/
theorem C29_type_example_false (X : Xyml) (hX : Lawful X) (h : Hdr) (b : Body)
    (fs : OM String (OM String DT)) (ps : OM String DT) (it : Option DT) (e : Example)
    (he : h.example = some e) (ho : OnlyValue e) (t' : DT)
    (hr : hat X ((DT.ext h b fs ps it).toYAML X) = .ok t') : exampleOf t' = none := by
  obtain ⟨A, hA⟩ := example_suffix X h b fs ps it e he
  obtain ⟨v, hv, hread⟩ := reread_suffix hX hA (k := "example") (by simp) (by decide) hr
  have hv' : v = e.toYAML X := by
    rcases List.mem_cons.mp hv with hv | hv
    · cases hv; rfl
    · split at hv
      · simp [OM.optEnt] at hv
      · cases hv
  subst hv'
  cases hb : isBasic t'.kind with
  | true =>
    obtain ⟨i, s, x, rfl⟩ := basic_of_kind hb
    rfl
  | false =>
    obtain ⟨s, x, hs, hstep⟩ := hread .example (named_facet hb (by decide) (by decide))
    obtain ⟨e', he', _⟩ := Res.map_eq_ok.mp hstep
    unfold loadExample at he'
    obtain ⟨e0, h0, h1⟩ := Res.bind_eq_ok.mp he'
    have : e0 = Example.new t'.kind := by
      revert h0
      cases t'.kind <;> intro h0 <;> first | (cases h0; rfl) | cases h0
    rw [this, onlyValue_panics X hX _ ho] at h1
    cases h1

/-- Such a type: parsed from `{type: string, example: hello}`. -/
example : ∃ t, hat Xyml.std (.map [(.str "type", .str "string"), (.str "example", .str "hello")]) =
    .ok t ∧ (∃ e, exampleOf t = some e ∧ OnlyValue e) ∧
    hat Xyml.std (t.toYAML Xyml.std) = .panic .emptyKey :=
  ⟨_, rfl, ⟨_, rfl, ⟨rfl, rfl, rfl, rfl, rfl⟩⟩, rfl⟩

/-- C29: false for an example with annotations that were parsed or kept in order: reading its
written form does not succeed.  (`hk`: the annotation is not shadowed by an extra facet.) -/
theorem C29_annotated_false (X : Xyml) (hX : Lawful X) (kd : Kind) (e e' : Example)
    (a : String × Ann) (ha : a ∈ e.annotations.ents) (h1 : a.1.toList.head? = some '(')
    (h2 : ∀ b ∈ e.annotations.ents, b.2.omap = true)
    (hk : Scalar.str a.1 ∉ e.extra.ents.map Prod.fst) :
    (Example.new kd).unmarshal X (e.toYAML X) ≠ .ok e' := by
  intro h
  have hexp : e.expand = true := by
    have : 0 < e.annotations.ents.length := List.length_pos_of_mem ha
    simp [Example.expand, OM.len, this]
  have hE : ∃ A, e.marshal X =
      (OM.empty false).putAll (A ++ (annEnts e.annotations ++ e.extra.ents)) := by
    refine ⟨OM.optEnt (.str "displayName") (e.displayName.map .str) ++
      (OM.optEnt (.str "description") (e.description.map .str) ++
      (OM.optEnt (.str "value") (e.value.map (Val.render X)) ++
      OM.optEnt (.str "strict") (if e.strict then none else some (X.ofBool e.strict)))), ?_⟩
    unfold Example.marshal
    rw [hexp]
    simp only [if_true, OM.putOpt_eq, OM.putAll_append]
    cases e.strict <;> rfl
  obtain ⟨A, hA⟩ := hE
  have hm : e.toYAML X = .map (asPairs X (lastWins (A ++ (annEnts e.annotations ++ e.extra.ents)))) := by
    unfold Example.toYAML renderAny renderPairs
    rw [hA, OM.omap_putAll, OM.empty_putAll_ents]
    rfl
  have hkey : Scalar.str a.1 ∈ (annEnts e.annotations ++ e.extra.ents).map Prod.fst := by
    rw [List.map_append, annEnts_keys]
    exact List.mem_append_left _ (List.mem_map_of_mem (f := fun e : String × Ann => Scalar.str e.1) ha)
  obtain ⟨v, hv, hmem⟩ := lastWins_suffix (A := A) hkey
  have hv' : ∃ b ∈ e.annotations.ents, v = renderStrMap id b.2 := by
    rcases List.mem_append.mp hv with hv | hv
    · obtain ⟨b, hb, he⟩ := List.mem_map.mp hv
      exact ⟨b, hb, (congrArg Prod.snd he).symm⟩
    · exact absurd (List.mem_map_of_mem (f := Prod.fst) hv) hk
  obtain ⟨b, hb, rfl⟩ := hv'
  rw [hm] at h
  have hmem' : (Node.str a.1, renderStrMap id b.2) ∈
      asPairs X (lastWins (A ++ (annEnts e.annotations ++ e.extra.ents))) := by
    rw [← hX.ofKey_str]
    exact List.mem_map_of_mem (f := fun e : Scalar × Node => (X.ofKey e.1, e.2)) hmem
  obtain ⟨s1, s2, _, hs⟩ := forPairs_mem (f := Example.assign X) (I := fun _ => True)
    (fun _ _ _ _ _ _ => trivial) _ _ _ trivial h _ hmem'
  unfold Example.assign at hs
  rw [show (Node.str a.1).isStr = true from rfl, show (Node.str a.1).value = a.1 from rfl] at hs
  simp only [Bool.not_true, Bool.false_eq_true, if_false, firstChar, h1, if_true] at hs
  obtain ⟨x, hx, _⟩ := Res.map_eq_ok.mp hs
  unfold renderStrMap renderPairs at hx
  rw [h2 b hb] at hx
  cases hx

/-- Such an example: read from `{value: x, (note): {a: b}}`. -/
example : ∃ e, (Example.new .string).unmarshal Xyml.std (.map [(.str "value", .str "x"),
      (.str "(note)", .map [(.str "a", .str "b")])]) = .ok e ∧
    (∃ a ∈ e.annotations.ents, a.1.toList.head? = some '(' ∧
      Scalar.str a.1 ∉ e.extra.ents.map Prod.fst) ∧
    ∀ b ∈ e.annotations.ents, b.2.omap = true :=
  ⟨_, rfl, ⟨_, List.mem_singleton.mpr rfl, by decide, by decide⟩, by
    intro b hb
    rw [List.mem_singleton.mp hb]
    rfl⟩

/-! ### C30 -/

/-- C30: false: facet definitions never survive.  However a type with facet definitions (in the
ordered map that every constructor installs) looks, if what is written for it can be read at all,
the result has no facet definitions. -/
theorem C30_facets_false (X : Xyml) (hX : Lawful X) (h : Hdr) (b : Body)
    (fs : OM String (OM String DT)) (ps : OM String DT) (it : Option DT) (ho : fs.omap = true)
    (hne : fs.ents ≠ []) (t' : DT) (hr : hat X ((DT.ext h b fs ps it).toYAML X) = .ok t') :
    isBasic t'.kind = true ∧ (facets t').ents = [] := by
  have hf : ∃ ns, facetsNode X fs = some (.seq omapTag ns) := by
    obtain ⟨es, o⟩ := fs
    cases ho
    cases es with
    | nil => exact absurd rfl hne
    | cons e es => exact ⟨_, by unfold facetsNode; rfl⟩
  obtain ⟨ns, hns⟩ := hf
  have hA : ∃ A B, (DT.ext h b fs ps it).ents X = A ++ ((.str "facets", .seq omapTag ns) :: B) ∧
      Scalar.str "facets" ∉ B.map Prod.fst := by
    refine ⟨OM.optEnt (.str "default") h.dflt ++ (h.headEnts ++ (h.extra.ents ++ (h.reqEnts X ++
      annEnts h.annotations))), OM.optEnt (.str "xml") (h.xml.map XML.toYAML) ++
      (b.ents X (propsNode X ps) (itemsNode X it) ++
      (OM.optEnt (.str "enum") (h.enum.map (renderList (Val.render X))) ++
      (OM.optEnt (.str "example") (h.example.map (Example.toYAML X)) ++
      OM.optEnt (.str "examples") (if h.examples.len > 0 then
      some (renderStrMap (Example.toYAML X) h.examples) else none)))), ?_, ?_⟩
    · simp only [DT.ents, dtEnts, Hdr.tailEnts, hns, List.append_assoc]
      rfl
    · simp only [List.map_append, List.mem_append, not_or]
      refine ⟨fun hm => ?_, fun hm => ?_, fun hm => ?_, fun hm => ?_, fun hm => ?_⟩
      · have := (optEnt_keys _ _).subset hm; simp at this
      · have := (Body.ents_keys X _ _ b).subset hm
        revert this
        cases b <;> (simp only [Body.kind]; decide)
      · have := (optEnt_keys _ _).subset hm; simp at this
      · have := (optEnt_keys _ _).subset hm; simp at this
      · have := (optEnt_keys _ _).subset hm; simp at this
  obtain ⟨A, B, hE, hB⟩ := hA
  obtain ⟨v, hv, hread⟩ := reread_suffix hX hE (k := "facets") (by simp) (by decide) hr
  have hv' : v = .seq omapTag ns := by
    rcases List.mem_cons.mp hv with hv | hv
    · cases hv; rfl
    · exact absurd (List.mem_map_of_mem (f := Prod.fst) hv) hB
  subst hv'
  cases hb : isBasic t'.kind with
  | true =>
    obtain ⟨i, s, x, rfl⟩ := basic_of_kind hb
    exact ⟨rfl, rfl⟩
  | false =>
    obtain ⟨s, x, hs, hstep⟩ := hread .facets (named_facet hb (by decide) (by decide))
    have hstep : loadFacets X (.seq omapTag ns) (facets s) = .ok x := hstep
    unfold loadFacets at hstep
    cases hstep

example (X : Xyml) (hX : Lawful X) (m : OM String DT) (t' : DT)
    (h : hat X ((DT.ext (Hdr.new .string) (.string ⟨none, 0, none⟩) ⟨[("unit", m)], true⟩
      (OM.empty false) none).toYAML X) = .ok t') : isBasic t'.kind = true ∧ (facets t').ents = [] :=
  C30_facets_false X hX _ _ _ _ _ rfl (List.cons_ne_nil _ _) t' h

/-- C30: when moreover the type matches the kind, it cannot be read at all. -/
theorem C30_unreadable_false (X : Xyml) (hX : Lawful X) (h : Hdr) (b : Body)
    (fs : OM String (OM String DT)) (ps : OM String DT) (it : Option DT) (ho : fs.omap = true)
    (hne : fs.ents ≠ []) (hc : CleanHdr b.kind h) (hm : classify h.schema = b.kind) (t' : DT) :
    hat X ((DT.ext h b fs ps it).toYAML X) ≠ .ok t' := by
  intro hr
  have h1 := (C30_facets_false X hX h b fs ps it ho hne t' hr).1
  rw [(reread_kind X hX h b fs ps it hc t' hr).trans hm, isBasic_ext] at h1
  cases h1

/-- A type with a facet definition, as parsed. -/
example : ∃ t, hat Xyml.std (.map [(.str "type", .str "string"),
      (.str "facets", .map [(.str "unit", .map [(.str "of", .str "string")])])]) = .ok t ∧
    (facets t).omap = true ∧ (facets t).ents ≠ [] ∧
    (hat Xyml.std (t.toYAML Xyml.std)) = .err .notMap :=
  ⟨_, rfl, rfl, List.cons_ne_nil _ _, rfl⟩

/-! ### C39: annotations of types -/

/-- C39: false for types: a type whose annotations were parsed (their values are ordered-output
maps) is never read back as a type with annotations; it is unreadable, or a nil/include type. -/
theorem C39_type_annotations_false (X : Xyml) (hX : Lawful X) (h : Hdr) (b : Body)
    (fs : OM String (OM String DT)) (ps : OM String DT) (it : Option DT)
    (hne : h.annotations.ents ≠ []) (hp : ParsedAnns true h.annotations) (t' : DT)
    (hr : hat X ((DT.ext h b fs ps it).toYAML X) = .ok t') :
    isBasic t'.kind = true ∧ annotations t' = [] := by
  obtain ⟨a, ha⟩ := List.exists_mem_of_ne_nil _ hne
  have hE : (DT.ext h b fs ps it).ents X = (OM.optEnt (.str "default") h.dflt ++ (h.headEnts ++
      (h.extra.ents ++ h.reqEnts X))) ++ (annEnts h.annotations ++
      h.tailEnts X b (facetsNode X fs) (propsNode X ps) (itemsNode X it)) := by
    simp only [DT.ents, dtEnts, List.append_assoc]
  have hkey : Scalar.str a.1 ∈ (annEnts h.annotations ++
      h.tailEnts X b (facetsNode X fs) (propsNode X ps) (itemsNode X it)).map Prod.fst := by
    rw [List.map_append, annEnts_keys]
    exact List.mem_append_left _ (List.mem_map_of_mem (f := fun e : String × Ann => Scalar.str e.1) ha)
  have hhead := hp.keys a ha
  have hnames : ∀ kd, a.1 ∉ facetNames kd := by
    intro kd hm
    have : ∀ s ∈ facetNames kd, s.toList.head? ≠ some '(' := by cases kd <;> decide
    exact this _ hm hhead
  obtain ⟨v, hv, hread⟩ := reread_suffix hX hE (k := a.1) hkey
    (fun he => by rw [he] at hhead; exact absurd hhead (by decide)) hr
  have hv' : ∃ c ∈ h.annotations.ents, v = renderStrMap id c.2 := by
    rcases List.mem_append.mp hv with hv | hv
    · obtain ⟨c, hc, he⟩ := List.mem_map.mp hv
      exact ⟨c, hc, (congrArg Prod.snd he).symm⟩
    · exfalso
      have h1 := List.mem_map_of_mem (f := Prod.fst) hv
      have h2 : Scalar.str a.1 ∈ (writeKeys b.kind).map Scalar.str :=
        (tailEnts_keys X h b _ _ _).subset h1
      obtain ⟨s, hs, he⟩ := List.mem_map.mp h2
      cases he
      exact (writeKeys_names b _ hs).2 hhead
  obtain ⟨c, hc, rfl⟩ := hv'
  cases hb : isBasic t'.kind with
  | true =>
    obtain ⟨i, s, x, rfl⟩ := basic_of_kind hb
    exact ⟨rfl, rfl⟩
  | false =>
    obtain ⟨s, x, hs, hstep⟩ := hread .annotations (by
      simp [facetOf, hb, startsWith, Node.str, Node.isStr, Node.value, hnames, hhead])
    obtain ⟨y, hy, _⟩ := Res.map_eq_ok.mp hstep
    unfold renderStrMap renderPairs at hy
    rw [(hp.values c hc).1] at hy
    cases hy

/-- Such a type, as parsed; its written form is rejected. -/
example : ∃ t, hat Xyml.std (.map [(.str "type", .str "string"),
      (.str "(note)", .map [(.str "a", .str "b")])]) = .ok t ∧ annotations t ≠ [] ∧
    ParsedAnns true (annotationMap t) ∧ (hat Xyml.std (t.toYAML Xyml.std)) = .err .notMap := by
  refine ⟨_, rfl, List.cons_ne_nil _ _, ?_, rfl⟩
  cases hat_parsed Xyml.std_lawful (n := .map [(.str "type", .str "string"),
      (.str "(note)", .map [(.str "a", .str "b")])]) rfl with
  | ext h => exact h.annotations

/-- C39: an annotation whose value is not a mapping is rejected on input. -/
theorem C39_scalar_annotation_rejected (X : Xyml) (ps : List (Node × Node)) (k : String) (v : Node)
    (kd : Kind) (hk : kindOf ps = some kd) (hb : isBasic kd = false)
    (hp : (Node.str k, v) ∈ ps) (hh : k.toList.head? = some '(') (hv : isMap v = false) (t : DT) :
    hat X (.map ps) ≠ .ok t := by
  intro h
  have hnames : k ∉ facetNames kd := by
    intro hm
    have : ∀ s ∈ facetNames kd, s.toList.head? ≠ some '(' := by cases kd <;> decide
    exact this _ hm hh
  obtain ⟨s, x, _, hs⟩ := hat_map_step h hk hp (f := .annotations) (by
    simp [facetOf, hb, startsWith, Node.str, Node.isStr, Node.value, hnames, hh])
  obtain ⟨y, hy, _⟩ := Res.map_eq_ok.mp hs
  cases v with
  | map _ => cases hv
  | _ => cases hy

example : kindOf [(.str "type", .str "string"), (.str "(note)", .str "x")] = some .string ∧
    (hat Xyml.std (.map [(.str "type", .str "string"), (.str "(note)", .str "x")])) =
      .err .notMap := ⟨by decide, rfl⟩

end Verif.Props
