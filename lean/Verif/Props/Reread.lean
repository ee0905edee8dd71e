import Verif.Props.FixedPoint
import Verif.Props.TypeOrder

/-! # C66: exactly which data types can be read back once written -/

namespace Verif.Props
open Verif Verif.Doc Verif.Doc.Spec

/-! ### What is taken for granted

Values have the Go type that the kind asks for, dictionaries have distinct keys, the type names the
kind, and keys are not used for two things. -/

/-- Annotations under names that start with a parenthesis. -/
structure RegularAnns (m : OM String Ann) : Prop where
  distinct : Distinct m.ents
  keys : ∀ e ∈ m.ents, e.1.toList.head? = some '('
  values : ∀ e ∈ m.ents, Distinct e.2.ents

/-- An example of the kind; extra facets are named like nothing else. -/
structure RegularExample (kd : Kind) (e : Example) : Prop where
  kind : e.kind = kd
  value : ∀ v, e.value = some v → FitsExample kd v
  annotations : RegularAnns e.annotations
  extra : Distinct e.extra.ents
  extraKeys : ∀ p ∈ e.extra.ents, ∀ s, p.1 = .str s →
    s.toList.head? ≠ some '(' ∧ s ∉ exampleKeys

/-- Extra facets under strings that are no facet of the kind and no annotation. -/
def RegularExtra (kd : Kind) (es : List (Scalar × Node)) : Prop :=
  Distinct es ∧ ∀ p ∈ es, ∃ s, p.1 = .str s ∧ s ∉ facetNames kd ∧
    (isBasic kd = true ∨ s.toList.head? ≠ some '(')

/-- The common part of an extended type. -/
structure RegularHdr (kd : Kind) (h : Hdr) : Prop where
  schema : classify h.schema = kd
  extra : RegularExtra kd (extraWithDefault h)
  annotations : RegularAnns h.annotations
  enum : ∀ l, h.enum = some l → ∀ v ∈ l, FitsEnum kd v
  «example» : ∀ e, h.example = some e → RegularExample kd e
  examplesDistinct : Distinct h.examples.ents
  examples : ∀ e ∈ h.examples.ents, RegularExample kd e.2

/-- The bounds of integer types are 64-bit integers. -/
def RegularBody : Body → Prop
  | .integer f => (∀ n, f.minimum = some n → IsInt64 n) ∧ ∀ n, f.maximum = some n → IsInt64 n
  | _ => True

/-- Regular data types. -/
inductive Regular : DT → Prop where
  | basic {i : Bool} {s : String} {x : OM Scalar Node} : (i = false → s = "nil") →
      RegularExtra (if i then .include else .nil) x.ents → Regular (.basic i s x)
  | ext {h : Hdr} {b : Body} {fs : OM String (OM String DT)} {ps : OM String DT}
      {it : Option DT} :
      RegularHdr b.kind h → RegularBody b → Distinct fs.ents →
      (∀ f ∈ fs.ents, Distinct f.2.ents) →
      (∀ f ∈ fs.ents, ∀ e ∈ f.2.ents, Regular e.2) →
      (ps.ents ≠ [] → b.kind = .object) → Distinct ps.ents →
      (∀ e ∈ ps.ents, Regular e.2) →
      (it ≠ none → b.kind = .array) →
      (∀ t, it = some t → Regular t) →
      Regular (.ext h b fs ps it)

/-! ### Annotations and examples -/

private theorem ann_flag {a a' : Ann} (h : loadAnn (renderStrMap id a) = .ok a') :
    a.omap = false := by
  cases ha : a.omap with
  | false => rfl
  | true =>
    unfold renderStrMap renderPairs at h
    rw [ha] at h
    cases h

private theorem example_of_read {X : Xyml} (hX : Lawful X) {kd : Kind} {e e' : Example}
    (hr : RegularExample kd e) (h : (Example.new kd).unmarshal X (e.toYAML X) = .ok e') :
    WritableExample kd e := by
  have hexp : Expanded e := by
    apply Classical.byContradiction
    intro hno
    simp only [Expanded, not_or, not_not, Classical.not_not] at hno
    obtain ⟨h1, h2, h3, h4, h5⟩ := hno
    rw [onlyValue_panics X hX kd ⟨h1, h2, h3, h4, by simpa using h5⟩] at h
    cases h
  rw [C64_example_expanded X e hexp] at h
  have read : ∀ {k : String} {v : Node}, (Scalar.str k, v) ∈ lastWins (examplePuts X e) →
      ∃ s s', Example.assign X (Node.str k) v s = .ok s' := by
    intro k v hm
    have hm' : (Node.str k, v) ∈
        (lastWins (examplePuts X e)).map fun p => (X.ofKey p.1, p.2) := by
      rw [← hX.ofKey_str]
      exact List.mem_map_of_mem (f := fun e : Scalar × Node => (X.ofKey e.1, e.2)) hm
    obtain ⟨s, s', _, h1⟩ := forPairs_mem (f := Example.assign X) (I := fun _ => True)
      (fun _ _ _ _ _ _ => trivial) _ _ _ trivial h _ hm'
    exact ⟨s, s', h1⟩
  refine ⟨hr.kind, hexp, hr.value, ⟨hr.annotations.distinct, fun a ha => ?_⟩, hr.extra, ?_⟩
  · have hk := hr.annotations.keys a ha
    refine ⟨hk, ?_, hr.annotations.values a ha⟩
    have hkey : Scalar.str a.1 ∈ ((e.annotations.ents.map fun a =>
        ((.str a.1, renderStrMap id a.2) : Scalar × Node)) ++ e.extra.ents).map Prod.fst := by
      rw [List.map_append]
      exact List.mem_append_left _ (List.mem_map_of_mem (f := Prod.fst)
        (List.mem_map_of_mem (f := fun a : String × Ann => (Scalar.str a.1, renderStrMap id a.2)) ha))
    obtain ⟨v, hv, hmem⟩ := lastWins_suffix (A := (e.displayName.toList.map fun s =>
        ((.str "displayName", .str s) : Scalar × Node)) ++
      (e.description.toList.map fun s => (.str "description", .str s)) ++
      (e.value.toList.map fun v => (.str "value", v.render X)) ++
      (if e.strict then [] else [(.str "strict", X.ofBool false)])) hkey
    rw [← List.append_assoc] at hmem
    rcases List.mem_append.mp hv with hv | hv
    · obtain ⟨b, hb, heq⟩ := List.mem_map.mp hv
      obtain ⟨b1, b2⟩ := b
      cases heq
      obtain rfl := val_of_distinct hr.annotations.distinct (k := a.1) (v := b2) (w := a.2) hb ha
      obtain ⟨s, s', h1⟩ := read hmem
      unfold Example.assign at h1
      rw [show (Node.str a.1).isStr = true from rfl, show (Node.str a.1).value = a.1 from rfl] at h1
      simp only [Bool.not_true, Bool.false_eq_true, if_false, firstChar, hk, if_true] at h1
      obtain ⟨x, hx, _⟩ := Res.map_eq_ok.mp h1
      exact ann_flag hx
    · exact absurd hk (hr.extraKeys _ hv _ rfl).1
  · intro p hp s hps
    obtain ⟨h1, h2⟩ := hr.extraKeys p hp s hps
    refine ⟨⟨?_, h1⟩, h2⟩
    rintro rfl
    have hkey : Scalar.str "" ∈ e.extra.ents.map Prod.fst :=
      hps ▸ List.mem_map_of_mem (f := Prod.fst) hp
    obtain ⟨v, _, hmem⟩ := lastWins_suffix (A := (e.displayName.toList.map fun s =>
        ((.str "displayName", .str s) : Scalar × Node)) ++
      (e.description.toList.map fun s => (.str "description", .str s)) ++
      (e.value.toList.map fun v => (.str "value", v.render X)) ++
      (if e.strict then [] else [(.str "strict", X.ofBool false)]) ++
      (e.annotations.ents.map fun a => (.str a.1, renderStrMap id a.2))) hkey
    obtain ⟨s, s', h3⟩ := read hmem
    cases h3

/-! ### Data types -/

private theorem map_of_read {σ : Type} {f : Node → Node → σ → Res σ} {b : Bool}
    {ps : List (Node × Node)} {s s' : σ} (h : mapForEach f (renderPairs b ps) s = .ok s') :
    b = false ∧ mapForEach f (.map ps) s = .ok s' := by
  cases b with
  | false => exact ⟨rfl, h⟩
  | true => cases h

private theorem writable_of_read {X : Xyml} (hX : Lawful X) {t : DT} (hr : Regular t) :
    ∀ t', hat X (t.toYAML X) = .ok t' → Writable t := by
  induction hr with
  | @basic i s x hs hx =>
    intro t' h
    cases i with
    | false =>
      rw [hs rfl]
      exact .nil ⟨hx.1, fun p hp => by
        obtain ⟨k, h1, h2, _⟩ := hx.2 p hp
        exact ⟨k, h1, h2, .inl rfl⟩⟩
    | true =>
      have hnil : x.ents = [] := by
        apply Classical.byContradiction
        intro hne
        obtain ⟨e, he⟩ := List.exists_mem_of_ne_nil _ hne
        obtain ⟨k, hk, hkn, _⟩ := hx.2 e he
        have hkt : k ≠ "type" := fun h => hkn (by rw [h]; decide)
        have hd : Distinct ((DT.basic true s x).ents X) := by
          refine List.nodup_cons.mpr ⟨fun hm => ?_, hx.1⟩
          obtain ⟨p, hp1, hp2⟩ := List.mem_map.mp hm
          obtain ⟨k', hk', hkn', _⟩ := hx.2 p hp1
          rw [hp2] at hk'
          cases hk'
          exact hkn' (by decide)
        have hm : (Scalar.str k, e.2) ∈ (DT.basic true s x).ents X := by
          refine List.mem_cons_of_mem _ ?_
          rw [← hk]; exact he
        rw [toYAML_eq, finish_map (List.mem_map_of_mem (f := Prod.fst) hm) (type_key X _)
          (by simpa using hkt)] at h
        obtain ⟨v, h1, h2⟩ := lastWins_suffix (A := []) (type_key X (DT.basic true s x))
        obtain rfl := val_of_distinct hd (type_mem X (DT.basic true s x)) h1
        have h3 : (Node.str "type", Node.scalar "!include" s) ∈
            asPairs X (lastWins ((DT.basic true s x).ents X)) := by
          rw [← hX.ofKey_str]
          exact List.mem_map_of_mem (f := fun e : Scalar × Node => (X.ofKey e.1, e.2)) h2
        obtain ⟨u, y, _, h4⟩ := hat_map_entry h _ h3
        revert u y
        rw [facetOf_type (by rfl)]
        intro u y _ h4
        cases h4
      obtain ⟨es, b⟩ := x
      cases hnil
      exact .incl
  | @ext h b fs ps it hh hb hf1 hf2 _ hp1 hp2 _ hi1 _ ihf ihp ihi =>
    intro t' hr
    have hc : CleanHdr b.kind h := by
      refine ⟨hh.extra.1, ?_, hh.annotations.distinct, hh.annotations.keys⟩
      intro p hp s hps
      obtain ⟨s', h1, h2, h3⟩ := hh.extra.2 p hp
      rw [hps] at h1
      cases h1
      exact ⟨h2, h3.resolve_left (by rw [isBasic_ext]; decide)⟩
    have hd : Distinct ((DT.ext h b fs ps it).ents X) := dtEnts_distinct _ _ _ hc
    have hk : t'.kind = b.kind := (reread_kind X hX h b fs ps it hc t' hr).trans hh.schema
    have any : ∀ {k : String} {v : Node} {f : Facet}, (Scalar.str k, v) ∈ (DT.ext h b fs ps it).ents X →
        k ≠ "type" → facetOf b.kind (Node.str k, v) = f →
        ∃ s x, facetStep X b.kind (Node.str k) v f (look f s) = .ok x := by
      intro k v f hm hne hf
      obtain ⟨s, x, h2⟩ := reread_entry hX hd hm hne hr (hk ▸ hf)
      rw [hk] at h2
      exact ⟨s, x, h2⟩
    have entry : ∀ {k : String} {v : Node} {f : Facet}, (Scalar.str k, v) ∈ (DT.ext h b fs ps it).ents X →
        k ≠ "type" → k ∈ facetNames b.kind → facetNamed.lookup k = some f →
        ∃ s x, facetStep X b.kind (Node.str k) v f (look f s) = .ok x :=
      fun hm hne hn hl => any hm hne (name_facet hn hl)
    have common : ∀ {k : String}, k ∈ facetNames.common → k ∈ facetNames b.kind := by
      intro k hin
      cases b <;> first | exact hin | exact List.mem_append_left _ hin
    have hnames : ∀ {k : String}, k ∉ facetNames b.kind → k ≠ "type" :=
      fun hn he => hn (he ▸ common (by decide))
    -- annotations
    have hanns : ∀ a ∈ h.annotations.ents, a.2.omap = false := by
      intro a ha
      have hhead := hh.annotations.keys a ha
      have hn : a.1 ∉ facetNames b.kind := by
        intro hm
        have : ∀ kd, ∀ s ∈ facetNames kd, s.toList.head? ≠ some '(' := by
          intro kd; cases kd <;> decide
        exact this _ _ hm hhead
      have hm : (Scalar.str a.1, renderStrMap id a.2) ∈ (DT.ext h b fs ps it).ents X := by
        have : (Scalar.str a.1, renderStrMap id a.2) ∈ annEnts h.annotations :=
          List.mem_map_of_mem (f := fun a : String × Ann => (Scalar.str a.1, renderStrMap id a.2)) ha
        simp only [DT.ents, dtEnts, List.mem_append]
        simp [this]
      have hf : facetOf b.kind (Node.str a.1, renderStrMap id a.2) = .annotations := by
        have hsw : startsWith '(' (Node.str a.1) = true := by
          simp [startsWith, Node.str, Node.isStr, Node.value, hhead]
        simp only [facetOf, show (Node.str a.1).value = a.1 from rfl]
        rw [if_neg (by simpa using hn), isBasic_ext, hsw]
        rfl
      obtain ⟨s, x, h3⟩ := any hm (hnames hn) hf
      obtain ⟨y, h4, _⟩ := Res.map_eq_ok.mp h3
      exact ann_flag h4
    -- extra facets
    have hextra : ∀ p ∈ extraWithDefault h, p.1 ≠ .str "" := by
      intro p hp he
      obtain ⟨s, h1, h2, h3⟩ := hh.extra.2 p hp
      rw [he] at h1
      cases h1
      have hm : (Scalar.str "", p.2) ∈ (DT.ext h b fs ps it).ents X := by
        have : (Scalar.str "", p.2) ∈ extraWithDefault h := by rw [← he]; exact hp
        unfold extraWithDefault at this
        simp only [DT.ents, dtEnts, List.mem_append]
        cases hdf : h.dflt with
        | none => rw [hdf] at this; simp [this]
        | some d =>
          rw [hdf] at this
          rcases List.mem_cons.mp this with h5 | h5
          · exact absurd (congrArg Prod.fst h5) (by simp)
          · simp [h5]
      have hf : facetOf b.kind (Node.str "", p.2) = .extra := by
        simp only [facetOf, show (Node.str "").value = "" from rfl]
        rw [if_neg (by simpa using h2), isBasic_ext]
        rfl
      obtain ⟨s, x, h4⟩ := any hm (by decide) hf
      have h4 : (if (!isBasic b.kind && (Node.str "").isStr && (Node.str "").value == "") = true
        then Res.panic Crash.emptyKey else _) = Res.ok x := h4
      rw [if_pos (by rw [isBasic_ext]; rfl)] at h4
      cases h4
    have hexample : ∀ e, h.example = some e → b.kind ≠ .any ∧ WritableExample b.kind e := by
      intro e hee
      have hm : (Scalar.str "example", e.toYAML X) ∈ (DT.ext h b fs ps it).ents X := by
        simp only [DT.ents, dtEnts, Hdr.tailEnts, List.mem_append, hee, Option.map_some]
        simp [OM.optEnt]
      obtain ⟨s, x, h3⟩ := entry (f := .example) hm (by decide) (common (by decide)) (by decide)
      obtain ⟨e', h4, _⟩ := Res.map_eq_ok.mp h3
      unfold loadExample at h4
      obtain ⟨e0, h5, h6⟩ := Res.bind_eq_ok.mp h4
      have : b.kind ≠ .any ∧ e0 = Example.new b.kind := by
        revert h5
        cases b.kind <;> intro h5 <;> first | (cases h5; exact ⟨by decide, rfl⟩) | cases h5
      rw [this.2] at h6
      exact ⟨this.1, example_of_read hX (hh.example e hee) h6⟩
    have hexamples : ∀ e ∈ h.examples.ents, h.examples.omap = false ∧ WritableExample b.kind e.2 := by
      intro e hee
      have hlen : h.examples.len > 0 := List.length_pos_of_mem hee
      have hm : (Scalar.str "examples", renderStrMap (Example.toYAML X) h.examples) ∈
          (DT.ext h b fs ps it).ents X := by
        simp only [DT.ents, dtEnts, Hdr.tailEnts, List.mem_append, if_pos hlen]
        simp [OM.optEnt]
      obtain ⟨s, x, h3⟩ := entry (f := .examples) hm (by decide) (common (by decide)) (by decide)
      have h3 : loadExamples X b.kind (look .examples s) (renderStrMap (Example.toYAML X) h.examples) =
        .ok x := h3
      unfold renderStrMap at h3
      obtain ⟨hflag, h3⟩ := map_of_read h3
      obtain ⟨s1, s2, h4⟩ := mapForEach_ok_mem h3 (Node.str e.1, e.2.toYAML X)
        (List.mem_map_of_mem (f := fun e : String × Example => (Node.str e.1, e.2.toYAML X)) hee)
      obtain ⟨_, _, h5⟩ := Res.bind_eq_ok.mp h4
      obtain ⟨e', h6, _⟩ := Res.map_eq_ok.mp h5
      exact ⟨hflag, example_of_read hX (hh.examples e hee) h6⟩
    have hhdr : WritableHdr b.kind h := by
      refine ⟨hh.schema, ⟨hh.extra.1, fun p hp => ?_⟩, ⟨hh.annotations.distinct, fun a ha =>
        ⟨hh.annotations.keys a ha, hanns a ha, hh.annotations.values a ha⟩⟩, hh.enum, hexample,
        fun hne => ?_, hh.examplesDistinct, fun e he => (hexamples e he).2⟩
      · obtain ⟨s, h1, h2, h3⟩ := hh.extra.2 p hp
        refine ⟨s, h1, h2, h3.imp id fun h4 => ⟨?_, h4⟩⟩
        rintro rfl
        exact hextra p hp h1
      · obtain ⟨e, he⟩ := List.exists_mem_of_ne_nil _ hne
        exact (hexamples e he).1
    have uint : ∀ {k : String} {n : Nat} {f : Facet},
        (Scalar.str k, X.ofInt n) ∈ b.ents X (propsNode X ps) (itemsNode X it) →
        k ≠ "type" → k ∈ facetNames b.kind → facetNamed.lookup k = some f →
        f ∈ [Facet.minLength, .maxLength, .minItems, .maxItems, .minProperties, .maxProperties] →
        IsSmall n := by
      intro k n f hm hne hn hl hf
      obtain ⟨s, x, h3⟩ := entry (body_mem hm) hne hn hl
      revert s x
      simp only [List.mem_cons, List.not_mem_nil, or_false] at hf
      rcases hf with rfl | rfl | rfl | rfl | rfl | rfl <;>
      · intro s x h3
        obtain ⟨y, h4, _⟩ := Res.map_eq_ok.mp h3
        exact small_of_read hX h4
    have hbody : WritableBody b := body_in_range (fun f hf => by subst hf; exact hb) uint
    -- facet definitions
    have hfacets : ∀ f ∈ fs.ents, fs.omap = false ∧ f.2.omap = false ∧
        ∀ e ∈ f.2.ents, Writable e.2 := by
      intro f hf
      have hnode : facetsNode X fs = some (renderPairs fs.omap (facetEnts X fs.ents)) := by
        obtain ⟨es, o⟩ := fs
        have : es.length > 0 := List.length_pos_of_mem hf
        unfold facetsNode
        rw [if_pos this]
      have hm : (Scalar.str "facets", renderPairs fs.omap (facetEnts X fs.ents)) ∈
          (DT.ext h b fs ps it).ents X := by
        simp only [DT.ents, dtEnts, Hdr.tailEnts, List.mem_append, hnode]
        simp [OM.optEnt]
      obtain ⟨s, x, h3⟩ := entry (f := .facets) hm (by decide) (common (by decide)) (by decide)
      have h3 : loadFacets X (renderPairs fs.omap (facetEnts X fs.ents)) (look .facets s) = .ok x := h3
      have h3 := (loadFacets_eq X _ _).symm.trans h3
      obtain ⟨hflag, h3⟩ := map_of_read h3
      have hmem : (Node.str f.1, typeMapNode X f.2) ∈ facetEnts X fs.ents := by
        rw [facetEnts_eq]
        exact List.mem_map_of_mem (f := fun e : String × OM String DT => (Node.str e.1, typeMapNode X e.2)) hf
      obtain ⟨s1, s2, h4⟩ := mapForEach_ok_mem h3 _ hmem
      obtain ⟨y, h5, _⟩ := loadFacet_ok h4
      have hn : typeMapNode X f.2 = renderPairs f.2.omap (typeEnts X f.2.ents) := by
        obtain ⟨_, ⟨es, o⟩⟩ := f
        unfold typeMapNode; rfl
      rw [hn, loadTypes_eq] at h5
      obtain ⟨hflag2, h5⟩ := map_of_read h5
      refine ⟨hflag, hflag2, fun e he => ?_⟩
      have hmem : (Node.str e.1, e.2.toYAML X) ∈ typeEnts X f.2.ents := by
        rw [typeEnts_eq]
        exact List.mem_map_of_mem (f := fun e : String × DT => (Node.str e.1, e.2.toYAML X)) he
      obtain ⟨s1, s2, h6⟩ := mapForEach_ok_mem h5 _ hmem
      obtain ⟨u, h7, _⟩ := loadType_ok h6
      exact ihf f hf e he u h7
    -- properties
    have hprops : ∀ e ∈ ps.ents, ps.omap = false ∧ e.2.isProperty = true ∧ Writable e.2 := by
      intro e hee
      have hne : ps.ents ≠ [] := List.ne_nil_of_mem hee
      have hkind := hp1 hne
      have hobj : ∃ f, b = .object f := by cases b <;> first | exact ⟨_, rfl⟩ | cases hkind
      obtain ⟨f, rfl⟩ := hobj
      have hnode : propsNode X ps = some (renderPairs ps.omap (typeEnts X ps.ents)) := by
        obtain ⟨es, o⟩ := ps
        have : es.length > 0 := List.length_pos_of_mem hee
        unfold propsNode
        rw [if_pos this]
      have hm : (Scalar.str "properties", renderPairs ps.omap (typeEnts X ps.ents)) ∈
          (Body.object f).ents X (propsNode X ps) (itemsNode X it) := by
        simp [Body.ents, hnode, OM.optEnt]
      obtain ⟨s, x, h3⟩ := entry (f := .properties) (body_mem hm) (by decide) (by simp only [Body.kind]; decide) (by decide)
      have h3 : loadProps X (renderPairs ps.omap (typeEnts X ps.ents)) (look .properties s) = .ok x := h3
      have h3 := (loadProps_eq X _ _).symm.trans h3
      obtain ⟨hflag, h3⟩ := map_of_read h3
      have hmem : (Node.str e.1, e.2.toYAML X) ∈ typeEnts X ps.ents := by
        rw [typeEnts_eq]
        exact List.mem_map_of_mem (f := fun e : String × DT => (Node.str e.1, e.2.toYAML X)) hee
      obtain ⟨s1, s2, h4⟩ := mapForEach_ok_mem h3 _ hmem
      obtain ⟨u, h5, _, hpr, _⟩ := loadProp_ok h4
      have hw := ihp e hee u h5
      rw [C26_read_back X hX e.2 hw] at h5
      cases h5
      exact ⟨hflag, (canon_isProperty e.2) ▸ hpr, hw⟩
    refine .ext hhdr hbody (fun hne => ?_) hf1 (fun f hf => ⟨(hfacets f hf).2.1, hf2 f hf⟩)
      (fun f hf => (hfacets f hf).2.2) (fun hne => ⟨hp1 hne, ?_⟩) hp2
      (fun e he => (hprops e he).2.1) (fun e he => (hprops e he).2.2) hi1 ?_
    · obtain ⟨f, hf⟩ := List.exists_mem_of_ne_nil _ hne
      exact (hfacets f hf).1
    · obtain ⟨e, he⟩ := List.exists_mem_of_ne_nil _ hne
      exact (hprops e he).1
    · intro t hti
      have hkind := hi1 (by rw [hti]; simp)
      have harr : ∃ f, b = .array f := by cases b <;> first | exact ⟨_, rfl⟩ | cases hkind
      obtain ⟨f, rfl⟩ := harr
      have hm : (Scalar.str "items", t.toYAML X) ∈
          (Body.array f).ents X (propsNode X ps) (itemsNode X it) := by
        subst hti
        have : itemsNode X (some t) = some (t.toYAML X) := by unfold itemsNode; rfl
        simp [Body.ents, this, OM.optEnt]
      obtain ⟨s, x, h3⟩ := entry (f := .items) (body_mem hm) (by decide) (by simp only [Body.kind]; decide) (by decide)
      obtain ⟨u, h4, _⟩ := Res.map_eq_ok.mp h3
      exact ihi t hti u h4

/-- C66: a regular data type can be read back exactly when it is `Writable`. -/
theorem C66_read_back_iff (X : Xyml) (hX : Lawful X) (t : DT) (hr : Regular t) :
    (∃ t', hat X (t.toYAML X) = .ok t') ↔ Writable t :=
  ⟨fun ⟨t', h⟩ => writable_of_read hX hr t' h, fun hw => ⟨canon t, C26_read_back X hX t hw⟩⟩

/-- C66: if it can be read back at all, what is read is `canon t`. -/
theorem C66_what_is_read (X : Xyml) (hX : Lawful X) (t t' : DT) (hr : Regular t)
    (h : hat X (t.toYAML X) = .ok t') : t' = canon t := by
  rw [C26_read_back X hX t (writable_of_read hX hr t' h)] at h
  exact (Res.ok.inj h).symm

/-! ### API documents -/

/-- An API document in which no two things are written under the same key, dictionaries have
distinct keys, and types are regular. -/
structure RegularApi (a : APISpec) : Prop where
  clean : CleanApi a
  schemas : ∀ p ∈ a.extra.ents, p.1 ≠ .str "schemas"
  uses : Distinct a.uses.ents
  securitySchemes : Distinct a.securitySchemes.ents
  baseURIParameters : Distinct a.baseURIParameters.ents
  traits : Distinct a.traits.ents
  annotationTypes : Distinct a.annotationTypes.ents
  resourceTypes : Distinct a.resourceTypes.ents
  types : Distinct a.types.ents
  typesEach : ∀ e ∈ a.types.ents, Regular e.2
  annotations : ∀ e ∈ a.annotations.ents, Distinct e.2.ents

private theorem dict_flag {σ V : Type} {f : Node → Node → σ → Res σ} {c : V → Node}
    {m : OM String V} {s s' : σ} (h : mapForEach f (renderStrMap c m) s = .ok s') :
    m.omap = false := by
  unfold renderStrMap at h
  exact (map_of_read h).1

private theorem types_of_read {X : Xyml} (hX : Lawful X) {m : OM String DT}
    (hr : ∀ e ∈ m.ents, Regular e.2) {x y : OM String DT}
    (h : loadTypes X (typeMapNode X m) x = .ok y) :
    m.omap = false ∧ ∀ e ∈ m.ents, Writable e.2 := by
  have hn : typeMapNode X m = renderPairs m.omap (typeEnts X m.ents) := by
    obtain ⟨es, o⟩ := m
    unfold typeMapNode; rfl
  rw [hn, loadTypes_eq] at h
  obtain ⟨hflag, h⟩ := map_of_read h
  refine ⟨hflag, fun e he => ?_⟩
  have hmem : (Node.str e.1, e.2.toYAML X) ∈ typeEnts X m.ents := by
    rw [typeEnts_eq]
    exact List.mem_map_of_mem (f := fun e : String × DT => (Node.str e.1, e.2.toYAML X)) he
  obtain ⟨s1, s2, h1⟩ := mapForEach_ok_mem h _ hmem
  obtain ⟨u, h2, _⟩ := loadType_ok h1
  exact writable_of_read hX (hr e he) u h2

private theorem ann_section {k : String} {v : Node} (hk : k.toList.head? = some '(') :
    apiSectionOf (Node.str k, v) = .annotations ∧ libSectionOf (Node.str k, v) = .annotations := by
  have h2 : startsWith '(' (Node.str k) = true := by
    simp [startsWith, Node.str, Node.isStr, Node.value, hk]
  refine ⟨by simp [apiSectionOf, h2], ?_⟩
  have h3 : libKeys.lookup k = none := by
    rw [List.lookup_eq_none_iff]
    intro x hx
    have : ∀ x ∈ libKeys, x.1.toList.head? ≠ some '(' := by decide
    have h4 := this x hx
    simp only [bne_iff_ne]
    intro h5
    rw [← h5] at h4
    exact h4 hk
  simp only [libSectionOf, show (Node.str k).value = k from rfl, h3, h2, if_true]

/-- C66: a regular API document can be read back exactly when it is `WritableApi`. -/
theorem C66_api_read_back_iff (X : Xyml) (hX : Lawful X) (a : APISpec) (hr : RegularApi a) :
    (∃ b, parseApi X (a.toYAML X) = .ok b) ↔ WritableApi a := by
  refine ⟨fun ⟨b, h⟩ => ?_, fun hw => ⟨canonApi a, C32_read_back X hX a hw⟩⟩
  rw [api_toYAML_clean hr.clean] at h
  have step : ∀ {k : String} {v : Node} {s : ApiSection}, (Scalar.str k, v) ∈ a.ents X →
      apiSectionOf (Node.str k, v) = s → ∃ x y, apiStep X (Node.str k) v s x = .ok y := by
    intro k v s hm hs
    have hm' : (Node.str k, v) ∈ asPairs X (a.ents X) := by
      rw [← hX.ofKey_str]
      exact List.mem_map_of_mem (f := fun e : Scalar × Node => (X.ofKey e.1, e.2)) hm
    obtain ⟨x, y, h1⟩ := api_part_mem (a := APISpec.new) h hm'
    subst hs
    exact ⟨x, y, h1⟩
  have pos : ∀ {V : Type} {m : OM String V}, m.ents ≠ [] → m.len > 0 :=
    fun hne => List.length_pos_iff.mpr hne
  have htypes : a.types.ents ≠ [] → a.types.omap = false ∧ ∀ e ∈ a.types.ents, Writable e.2 := by
    intro hne
    obtain ⟨x, y, h1⟩ := step (k := "types") (v := typeMapNode X a.types)
      (by simp [APISpec.ents, APISpec.typesEnts, ifNonEmpty, if_pos (pos hne), OM.optEnt])
      (apiSectionOf_known (by decide : ("types", ApiSection.types) ∈ apiKeys) _)
    exact types_of_read hX hr.typesEach h1
  refine ⟨hr.clean, ?_, ⟨fun hne => ?_, hr.uses⟩, ⟨fun hne => ?_, hr.securitySchemes⟩,
    ⟨fun hne => ?_, hr.baseURIParameters⟩, ⟨fun hne => ?_, hr.traits⟩,
    ⟨fun hne => ?_, hr.annotationTypes⟩, ⟨fun hne => ?_, hr.resourceTypes⟩,
    ⟨fun hne => (htypes hne).1, hr.types⟩,
    fun e he => (htypes (List.ne_nil_of_mem he)).2 e he, ⟨hr.clean.annotations, fun e he => ?_⟩⟩
  · intro p hp s hs
    have h2 : s ≠ "schemas" := fun he => hr.schemas p hp (he ▸ hs)
    refine ⟨?_, h2⟩
    rintro rfl
    obtain ⟨k1, k2, k3⟩ := hr.clean.extraKeys p hp _ hs
    have hm : (Scalar.str "", p.2) ∈ a.ents X := by
      have : (Scalar.str "", p.2) ∈ a.extra.ents := by rw [← hs]; exact hp
      simp [APISpec.ents, this]
    obtain ⟨x, y, h1⟩ := step hm (apiSectionOf_extra k1 h2 k2 k3)
    exact nomatch (show apiStep X (Node.str "") p.2 .extra x = .panic .emptyKey from rfl).symm.trans h1
  · obtain ⟨x, y, h1⟩ := step (k := "uses") (v := renderStrMap .str a.uses)
      (by simp [APISpec.ents, APISpec.headEnts, ifNonEmpty, if_pos (pos hne), OM.optEnt])
      (apiSectionOf_known (by decide : ("uses", ApiSection.uses) ∈ apiKeys) _)
    exact dict_flag h1
  · obtain ⟨x, y, h1⟩ := step (k := "securitySchemes") (v := renderStrMap id a.securitySchemes)
      (by simp [APISpec.ents, APISpec.headEnts, ifNonEmpty, if_pos (pos hne), OM.optEnt])
      (apiSectionOf_known (by decide : ("securitySchemes", ApiSection.securitySchemes) ∈ apiKeys) _)
    exact dict_flag h1
  · obtain ⟨x, y, h1⟩ := step (k := "baseUriParameters") (v := renderStrMap id a.baseURIParameters)
      (by simp [APISpec.ents, APISpec.headEnts, ifNonEmpty, if_pos (pos hne), OM.optEnt])
      (apiSectionOf_known
        (by decide : ("baseUriParameters", ApiSection.baseUriParameters) ∈ apiKeys) _)
    exact dict_flag h1
  · obtain ⟨x, y, h1⟩ := step (k := "traits") (v := renderStrMap id a.traits)
      (by simp [APISpec.ents, APISpec.headEnts, ifNonEmpty, if_pos (pos hne), OM.optEnt])
      (apiSectionOf_known (by decide : ("traits", ApiSection.traits) ∈ apiKeys) _)
    exact dict_flag h1
  · obtain ⟨x, y, h1⟩ := step (k := "annotationTypes") (v := renderStrMap id a.annotationTypes)
      (by simp [APISpec.ents, APISpec.headEnts, ifNonEmpty, if_pos (pos hne), OM.optEnt])
      (apiSectionOf_known (by decide : ("annotationTypes", ApiSection.annotationTypes) ∈ apiKeys) _)
    exact dict_flag h1
  · obtain ⟨x, y, h1⟩ := step (k := "resourceTypes") (v := renderStrMap id a.resourceTypes)
      (by simp [APISpec.ents, APISpec.headEnts, ifNonEmpty, if_pos (pos hne), OM.optEnt])
      (apiSectionOf_known (by decide : ("resourceTypes", ApiSection.resourceTypes) ∈ apiKeys) _)
    exact dict_flag h1
  · have hk := hr.clean.annotationKeys e he
    refine ⟨hk, ?_, hr.annotations e he⟩
    have hm : (Scalar.str e.1, renderStrMap id e.2) ∈ a.ents X := by
      have : (Scalar.str e.1, renderStrMap id e.2) ∈ annEnts a.annotations :=
        List.mem_map_of_mem (f := fun a : String × Ann => (Scalar.str a.1, renderStrMap id a.2)) he
      simp [APISpec.ents, this]
    obtain ⟨x, y, h1⟩ := step hm (ann_section hk).1
    obtain ⟨z, h2, _⟩ := Res.map_eq_ok.mp h1
    exact ann_flag h2

/-- C66: if it can be read back at all, what is read is `canonApi a`. -/
theorem C66_api_what_is_read (X : Xyml) (hX : Lawful X) (a b : APISpec) (hr : RegularApi a)
    (h : parseApi X (a.toYAML X) = .ok b) : b = canonApi a := by
  rw [C32_read_back X hX a ((C66_api_read_back_iff X hX a hr).mp ⟨b, h⟩)] at h
  exact (Res.ok.inj h).symm

/-! ### Libraries -/

/-- The same for libraries; annotation types are read into the annotations (C44) and are left
out here. -/
structure RegularLib (l : Library) : Prop where
  clean : CleanLib l
  schemas : ∀ p ∈ l.extra.ents, p.1 ≠ .str "schemas"
  uses : Distinct l.uses.ents
  securitySchemes : Distinct l.securitySchemes.ents
  traits : Distinct l.traits.ents
  annotationTypes : l.annotationTypes.ents = []
  resourceTypes : Distinct l.resourceTypes.ents
  types : Distinct l.types.ents
  typesEach : ∀ e ∈ l.types.ents, Regular e.2
  annotations : ∀ e ∈ l.annotations.ents, Distinct e.2.ents

/-- C66: a regular library can be read back exactly when it is `WritableLib`. -/
theorem C66_library_read_back_iff (X : Xyml) (hX : Lawful X) (l : Library) (hr : RegularLib l) :
    (∃ m, parseLibrary X (some (l.toYAML X)) = .ok m) ↔ WritableLib l := by
  refine ⟨fun ⟨b, h⟩ => ?_, fun hw => ⟨canonLib l, C43_read_back X hX l hw⟩⟩
  rw [lib_toYAML_clean hr.clean] at h
  have step : ∀ {k : String} {v : Node} {s : LibSection}, (Scalar.str k, v) ∈ l.ents X →
      libSectionOf (Node.str k, v) = s → ∃ x y, libStep X (Node.str k) v s x = .ok y := by
    intro k v s hm hs
    have hm' : (Node.str k, v) ∈ asPairs X (l.ents X) := by
      rw [← hX.ofKey_str]
      exact List.mem_map_of_mem (f := fun e : Scalar × Node => (X.ofKey e.1, e.2)) hm
    obtain ⟨x, y, h1⟩ := lib_part_mem (a := Library.new) h hm'
    subst hs
    exact ⟨x, y, h1⟩
  have pos : ∀ {V : Type} {m : OM String V}, m.ents ≠ [] → m.len > 0 :=
    fun hne => List.length_pos_iff.mpr hne
  have htypes : l.types.ents ≠ [] → l.types.omap = false ∧ ∀ e ∈ l.types.ents, Writable e.2 := by
    intro hne
    obtain ⟨x, y, h1⟩ := step (k := "types") (v := typeMapNode X l.types)
      (by simp [Library.ents, ifNonEmpty, if_pos (pos hne), OM.optEnt])
      (libSectionOf_known (by decide : ("types", LibSection.types) ∈ libKeys) _)
    exact types_of_read hX hr.typesEach h1
  refine ⟨hr.clean, ?_, ⟨fun hne => ?_, hr.uses⟩, ⟨fun hne => ?_, hr.securitySchemes⟩,
    ⟨fun hne => ?_, hr.traits⟩, hr.annotationTypes, ⟨fun hne => ?_, hr.resourceTypes⟩,
    ⟨fun hne => (htypes hne).1, hr.types⟩,
    fun e he => (htypes (List.ne_nil_of_mem he)).2 e he, ⟨hr.clean.annotations, fun e he => ?_⟩⟩
  · intro p hp s hs
    have h2 : s ≠ "schemas" := fun he => hr.schemas p hp (he ▸ hs)
    refine ⟨?_, h2⟩
    rintro rfl
    obtain ⟨k1, k2⟩ := hr.clean.extraKeys p hp _ hs
    have hm : (Scalar.str "", p.2) ∈ l.ents X := by
      have : (Scalar.str "", p.2) ∈ l.extra.ents := by rw [← hs]; exact hp
      simp [Library.ents, this]
    obtain ⟨x, y, h1⟩ := step (s := .extra) hm
      ((libSectionOf_new k1 h2).trans (if_neg (by decide)))
    exact nomatch (show libStep X (Node.str "") p.2 .extra x = .panic .emptyKey from rfl).symm.trans h1
  · obtain ⟨x, y, h1⟩ := step (k := "uses") (v := renderStrMap .str l.uses)
      (by simp [Library.ents, ifNonEmpty, if_pos (pos hne), OM.optEnt])
      (libSectionOf_known (by decide : ("uses", LibSection.uses) ∈ libKeys) _)
    exact dict_flag h1
  · obtain ⟨x, y, h1⟩ := step (k := "securitySchemes") (v := renderStrMap id l.securitySchemes)
      (by simp [Library.ents, ifNonEmpty, if_pos (pos hne), OM.optEnt])
      (libSectionOf_known (by decide : ("securitySchemes", LibSection.securitySchemes) ∈ libKeys) _)
    exact dict_flag h1
  · obtain ⟨x, y, h1⟩ := step (k := "traits") (v := renderStrMap id l.traits)
      (by simp [Library.ents, ifNonEmpty, if_pos (pos hne), OM.optEnt])
      (libSectionOf_known (by decide : ("traits", LibSection.traits) ∈ libKeys) _)
    exact dict_flag h1
  · obtain ⟨x, y, h1⟩ := step (k := "resourceTypes") (v := renderStrMap id l.resourceTypes)
      (by simp [Library.ents, ifNonEmpty, if_pos (pos hne), OM.optEnt])
      (libSectionOf_known (by decide : ("resourceTypes", LibSection.resourceTypes) ∈ libKeys) _)
    exact dict_flag h1
  · have hk := hr.clean.annotationKeys e he
    refine ⟨hk, ?_, hr.annotations e he⟩
    have hm : (Scalar.str e.1, renderStrMap id e.2) ∈ l.ents X := by
      have : (Scalar.str e.1, renderStrMap id e.2) ∈ annEnts l.annotations :=
        List.mem_map_of_mem (f := fun a : String × Ann => (Scalar.str a.1, renderStrMap id a.2)) he
      simp [Library.ents, this]
    obtain ⟨x, y, h1⟩ := step hm (ann_section hk).2
    have h1 : (if (Node.str e.1).value = "annotationTypes" then _
      else (loadAnn (renderStrMap id e.2)).map fun a => OM.put x (Node.str e.1).value a) = .ok y := h1
    rw [if_neg (by
      intro he
      have he : e.1 = "annotationTypes" := he
      rw [he] at hk
      exact absurd hk (by decide))] at h1
    obtain ⟨z, h2, _⟩ := Res.map_eq_ok.mp h1
    exact ann_flag h2

/-- C66: if it can be read back at all, what is read is `canonLib l`. -/
theorem C66_library_what_is_read (X : Xyml) (hX : Lawful X) (l m : Library) (hr : RegularLib l)
    (h : parseLibrary X (some (l.toYAML X)) = .ok m) : m = canonLib l := by
  rw [C43_read_back X hX l ((C66_library_read_back_iff X hX l hr).mp ⟨m, h⟩)] at h
  exact (Res.ok.inj h).symm

/-! ### Cases -/

private def withAnn (a : Ann) (n : Nat) : DT :=
  .ext { Hdr.new .string with annotations := ⟨[("(note)", a)], true⟩ } (.string ⟨none, 0, some n⟩)
    (OM.empty true) (OM.empty false) none

private theorem withAnn_regular (a : Ann) (n : Nat) (ha : Distinct a.ents) :
    Regular (withAnn a n) := by
  refine .ext ⟨rfl, ⟨List.nodup_nil, ?_⟩, ⟨?_, ?_, ?_⟩, ?_, ?_, List.nodup_nil, ?_⟩ trivial
    List.nodup_nil ?_ ?_ ?_ List.nodup_nil ?_ ?_ ?_
  · intro p hp; cases hp
  · exact List.nodup_singleton _
  · intro e he; cases List.mem_singleton.mp he; exact (by decide : "(note)".toList.head? = some '(')
  · intro e he; cases List.mem_singleton.mp he; exact ha
  · intro l hl; cases hl
  · intro l hl; cases hl
  · intro l hl; cases hl
  · intro l hl; cases hl
  · intro l hl; cases hl
  · intro h; exact absurd rfl h
  · intro l hl; cases hl
  · intro h; exact absurd rfl h
  · intro l hl; cases hl

/-- A string type with an annotation and a maximal length is read back exactly when the
annotation is a plain map and the length is less than 2^63. -/
example (X : Xyml) (hX : Lawful X) (a : Ann) (n : Nat) (ha : Distinct a.ents) :
    (∃ t', hat X ((withAnn a n).toYAML X) = .ok t') ↔
      a.omap = false ∧ n < 9223372036854775808 := by
  rw [C66_read_back_iff X hX _ (withAnn_regular a n ha)]
  constructor
  · intro hw
    cases hw with
    | ext hh hb =>
      exact ⟨(hh.annotations.2 ("(note)", a) (List.mem_singleton.mpr rfl)).2.1, hb.2 n rfl⟩
  · rintro ⟨h1, h2⟩
    have hr := withAnn_regular a n ha
    cases hr with
    | ext hh hb hf1 hf2 hf3 hp1 hp2 hp3 hi1 hi2 =>
      refine .ext ⟨hh.schema, ⟨hh.extra.1, fun p hp => (by cases hp)⟩,
        ⟨hh.annotations.distinct, ?_⟩, hh.enum, fun e he => (by cases he), fun h => absurd rfl h,
        List.nodup_nil, fun e he => (by cases he)⟩
        ⟨(by decide : (0 : Nat) < 9223372036854775808), fun m hm => (by cases hm; exact h2)⟩
        (fun h => absurd rfl h) List.nodup_nil (fun e he => (by cases he))
        (fun e he => (by cases he)) (fun h => absurd rfl h) List.nodup_nil
        (fun e he => (by cases he)) (fun e he => (by cases he)) (fun h => absurd rfl h)
        (fun e he => (by cases he))
      intro e he
      cases List.mem_singleton.mp he
      exact ⟨(by decide : "(note)".toList.head? = some '('), h1, ha⟩

/-- An include with an extra facet cannot be read back. -/
example (X : Xyml) (hX : Lawful X) (s : String) (v : Node) (o : Bool) (t' : DT) :
    hat X ((DT.basic true s ⟨[(.str "color", v)], o⟩).toYAML X) ≠ .ok t' := by
  intro h
  have hr : Regular (DT.basic true s ⟨[(.str "color", v)], o⟩) :=
    .basic (fun h => by cases h) ⟨List.nodup_singleton _, fun p hp => by
      cases List.mem_singleton.mp hp; exact ⟨"color", rfl, by decide, .inl rfl⟩⟩
  cases (C66_read_back_iff X hX _ hr).mp ⟨t', h⟩

/-- An API document with a title, one `uses` entry and one type. -/
private def withType (u : Bool) (t : DT) : APISpec :=
  { APISpec.new with title := "t", uses := ⟨[("lib", "lib.raml")], u⟩, types := ⟨[("T", t)], false⟩ }

/-- It is read back exactly when its `uses` dictionary is a plain map and the type can be. -/
example (X : Xyml) (hX : Lawful X) (u : Bool) (a : Ann) (n : Nat) (ha : Distinct a.ents) :
    (∃ b, parseApi X ((withType u (withAnn a n)).toYAML X) = .ok b) ↔
      u = false ∧ Writable (withAnn a n) := by
  have hr : RegularApi (withType u (withAnn a n)) :=
    { clean := ⟨List.nodup_nil, fun _ h => (nomatch h), List.nodup_nil, fun _ h => (nomatch h),
        List.nodup_nil, fun _ h => (nomatch h)⟩
      schemas := fun _ h => (nomatch h)
      uses := List.nodup_singleton _
      securitySchemes := List.nodup_nil
      baseURIParameters := List.nodup_nil
      traits := List.nodup_nil
      annotationTypes := List.nodup_nil
      resourceTypes := List.nodup_nil
      types := List.nodup_singleton _
      typesEach := fun e he => by
        cases List.mem_singleton.mp he
        exact withAnn_regular a n ha
      annotations := fun _ h => (nomatch h) }
  rw [C66_api_read_back_iff X hX _ hr]
  constructor
  · intro hw
    exact ⟨hw.uses.1 (List.cons_ne_nil _ _), hw.typesEach ("T", _) (List.mem_singleton.mpr rfl)⟩
  · rintro ⟨h1, h2⟩
    have e : ∀ {V : Type}, WritableMap (OM.empty false : OM String V) :=
      ⟨fun h => absurd rfl h, List.nodup_nil⟩
    exact ⟨hr.clean, fun _ h => (nomatch h), ⟨fun _ => h1, hr.uses⟩, e, e, e, e, e,
      ⟨fun _ => rfl, hr.types⟩, fun x hx => by cases List.mem_singleton.mp hx; exact h2,
      List.nodup_nil, fun _ h => (nomatch h)⟩

/-- A library with one dictionary is read back exactly when that is a plain map. -/
example (X : Xyml) (hX : Lawful X) (u : Bool) (v : Node) :
    (∃ m, parseLibrary X (some ((({ Library.new with traits := ⟨[("paged", v)], u⟩ } : Library)).toYAML X))
      = .ok m) ↔ u = false := by
  have hr : RegularLib { Library.new with traits := ⟨[("paged", v)], u⟩ } :=
    { clean := ⟨List.nodup_nil, fun _ h => (nomatch h), List.nodup_nil, fun _ h => (nomatch h)⟩
      schemas := fun _ h => (nomatch h)
      uses := List.nodup_nil
      securitySchemes := List.nodup_nil
      traits := List.nodup_singleton _
      annotationTypes := rfl
      resourceTypes := List.nodup_nil
      types := List.nodup_nil
      typesEach := fun _ h => (nomatch h)
      annotations := fun _ h => (nomatch h) }
  rw [C66_library_read_back_iff X hX _ hr]
  constructor
  · intro hw
    exact hw.traits.1 (List.cons_ne_nil _ _)
  · intro h1
    have e : ∀ {V : Type}, WritableMap (OM.empty false : OM String V) :=
      ⟨fun h => absurd rfl h, List.nodup_nil⟩
    exact ⟨hr.clean, fun _ h => (nomatch h), e, e, ⟨fun _ => h1, hr.traits⟩, rfl, e, e,
      fun _ h => (nomatch h), List.nodup_nil, fun _ h => (nomatch h)⟩

end Verif.Props
