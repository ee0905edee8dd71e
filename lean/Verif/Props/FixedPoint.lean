import Verif.Props.LibWritten

/-! # C48: a second round trip changes nothing -/

namespace Verif.Props
open Verif Verif.Doc Verif.Doc.Spec

/-- The extra facets of an example have keys that mean nothing else. -/
def TidyExample (e : Example) : Prop :=
  ∀ p ∈ e.extra.ents, ∀ s, p.1 = .str s → PlainKey s ∧ s ∉ exampleKeys

/-- The type names the kind and the keys of extra facets do not look like annotations, at any
depth (not inside facet definitions).  Both can fail for parsed types: the kind is chosen by the
first of several `type` entries, the type is the last of them; and a key that is no string can
have the text `(x)`. -/
inductive Tidy : DT → Prop where
  | basic {i : Bool} {s : String} {x : OM Scalar Node} : (i = false → s = "nil") →
      Tidy (.basic i s x)
  | ext {h : Hdr} {b : Body} {fs : OM String (OM String DT)} {ps : OM String DT}
      {it : Option DT} :
      classify h.schema = b.kind →
      (∀ p ∈ h.extra.ents, ∀ s, p.1 = .str s → PlainKey s) →
      (∀ e, h.example = some e → TidyExample e) →
      (∀ e ∈ h.examples.ents, TidyExample e.2) →
      (∀ e ∈ ps.ents, Tidy e.2) → (∀ t, it = some t → Tidy t) →
      Tidy (.ext h b fs ps it)

theorem val_of_distinct {K V : Type} {es : List (K × V)} (h : Distinct es) {k : K} {v w : V}
    (hv : (k, v) ∈ es) (hw : (k, w) ∈ es) : v = w := by
  induction es with
  | nil => cases hv
  | cons e es ih =>
    have hd : e.1 ∉ es.map Prod.fst ∧ Distinct es := List.nodup_cons.mp h
    have key : ∀ {u : V}, (k, u) ∈ es → k ∈ es.map Prod.fst :=
      fun hu => List.mem_map_of_mem (f := Prod.fst) hu
    rcases List.mem_cons.mp hv with hv1 | hv1 <;> rcases List.mem_cons.mp hw with hw1 | hw1
    · rw [← hv1] at hw1
      exact (congrArg Prod.snd hw1).symm
    · rw [← hv1] at hd
      exact absurd (key hw1) hd.1
    · rw [← hw1] at hd
      exact absurd (key hv1) hd.1
    · exact ih hd.2 hv1 hw1

theorem reread_entry {X : Xyml} (hX : Lawful X) {t t' : DT} {k : String} {v : Node}
    (hd : Distinct (t.ents X)) (hm : (Scalar.str k, v) ∈ t.ents X) (hne : k ≠ "type")
    (h : hat X (t.toYAML X) = .ok t') {f : Facet} (hf : facetOf t'.kind (Node.str k, v) = f) :
    ∃ s x, facetStep X t'.kind (Node.str k) v f (look f s) = .ok x := by
  obtain ⟨w, h1, h2⟩ := reread_suffix hX (A := []) (B := t.ents X) rfl
    (List.mem_map_of_mem (f := Prod.fst) hm) hne h
  obtain rfl := val_of_distinct hd hm h1
  obtain ⟨s, x, _, h3⟩ := h2 f hf
  exact ⟨s, x, h3⟩

theorem small_of_read {X : Xyml} (hX : Lawful X) {n : Nat} {x : Nat}
    (h : asUint X (X.ofInt n) = .ok x) : IsSmall n := by
  by_cases hn : n < 9223372036854775808
  · exact hn
  · exfalso
    have h1 := hX.toInt_big (i := n) (by omega)
    unfold asUint asInt at h
    rw [h1] at h
    cases h

private theorem example_of_read {X : Xyml} (hX : Lawful X) {kd : Kind} {e e' : Example}
    (hp : ParsedExample kd e) (ht : TidyExample e)
    (h : (Example.new kd).unmarshal X (e.toYAML X) = .ok e') : WritableExample kd e := by
  have hann : e.annotations.ents = [] := by
    apply Classical.byContradiction
    intro hne
    obtain ⟨a, ha⟩ := List.exists_mem_of_ne_nil _ hne
    have hk := hp.annotations.keys a ha
    refine C29_annotated_false X hX kd e e' a ha hk (fun b hb => (hp.annotations.values b hb).1) ?_ h
    intro hm
    obtain ⟨p, hp1, hp2⟩ := List.mem_map.mp hm
    exact (ht p hp1 _ hp2).1.2 hk
  refine ⟨hp.kind, ?_, hp.value, ?_, hp.extra, ht⟩
  · apply Classical.byContradiction
    intro hno
    simp only [not_or, not_not, Classical.not_not] at hno
    obtain ⟨h1, h2, h3, h4, h5⟩ := hno
    rw [onlyValue_panics X hX kd ⟨h1, h2, h3, h4, by simpa using h5⟩] at h
    cases h
  · refine ⟨hp.annotations.distinct, fun b hb => ?_⟩
    rw [hann] at hb
    cases hb

theorem name_facet {b : Body} {name : String} {v : Node} {f : Facet}
    (hn : name ∈ facetNames b.kind) (hl : facetNamed.lookup name = some f) :
    facetOf b.kind (Node.str name, v) = f :=
  facetOf_eq rfl (List.contains_iff_mem.mpr hn) hl

theorem body_mem {X : Xyml} {h : Hdr} {b : Body} {fs : OM String (OM String DT)}
    {ps : OM String DT} {it : Option DT} {e : Scalar × Node}
    (he : e ∈ b.ents X (propsNode X ps) (itemsNode X it)) :
    e ∈ (DT.ext h b fs ps it).ents X := by
  simp only [DT.ents, dtEnts, Hdr.tailEnts, List.mem_append]
  simp [he]

/-- The numbers of a type are in range when those that are written are. -/
theorem body_in_range {X : Xyml} {b : Body} {props items : Option Node}
    (hb : ∀ f, b = .integer f → WritableBody b)
    (uint : ∀ {k : String} {n : Nat} {f : Facet},
      (Scalar.str k, X.ofInt n) ∈ b.ents X props items →
      k ≠ "type" → k ∈ facetNames b.kind → facetNamed.lookup k = some f →
      f ∈ [Facet.minLength, .maxLength, .minItems, .maxItems, .minProperties, .maxProperties] →
      IsSmall n) : WritableBody b := by
  cases b with
  | integer f => exact hb f rfl
  | string f =>
    refine ⟨?_, fun n hn => ?_⟩
    · by_cases h0 : f.minLength > 0
      · refine uint (k := "minLength") ?_ (by decide) (by simp only [Body.kind]; decide) (by decide) (by decide : Facet.minLength ∈ _)
        simp [Body.ents, if_pos h0, OM.optEnt]
      · have : f.minLength = 0 := by omega
        rw [this]; exact (by decide : (0 : Nat) < 9223372036854775808)
    · refine uint (k := "maxLength") ?_ (by decide) (by simp only [Body.kind]; decide) (by decide) (by decide : Facet.maxLength ∈ _)
      simp [Body.ents, hn, OM.optEnt]
  | file f =>
    refine ⟨?_, ?_⟩
    · by_cases h0 : f.minLength = 0
      · rw [h0]; exact (by decide : (0 : Nat) < 9223372036854775808)
      · refine uint (k := "minLength") ?_ (by decide) (by simp only [Body.kind]; decide) (by decide) (by decide : Facet.minLength ∈ _)
        simp [Body.ents, h0, OM.optEnt]
    · by_cases h0 : f.maxLength = 2147483647
      · rw [h0]; exact (by decide : (2147483647 : Nat) < 9223372036854775808)
      · refine uint (k := "maxLength") ?_ (by decide) (by simp only [Body.kind]; decide) (by decide) (by decide : Facet.maxLength ∈ _)
        simp [Body.ents, h0, OM.optEnt]
  | array f =>
    refine ⟨?_, ?_⟩
    · by_cases h0 : f.minItems = 0
      · rw [h0]; exact (by decide : (0 : Nat) < 9223372036854775808)
      · refine uint (k := "minItems") ?_ (by decide) (by simp only [Body.kind]; decide) (by decide) (by decide : Facet.minItems ∈ _)
        simp [Body.ents, h0, OM.optEnt]
    · by_cases h0 : f.maxItems = 2147483647
      · rw [h0]; exact (by decide : (2147483647 : Nat) < 9223372036854775808)
      · refine uint (k := "maxItems") ?_ (by decide) (by simp only [Body.kind]; decide) (by decide) (by decide : Facet.maxItems ∈ _)
        simp [Body.ents, h0, OM.optEnt]
  | object f =>
    refine ⟨fun n hn => ?_, fun n hn => ?_⟩
    · refine uint (k := "minProperties") ?_ (by decide) (by simp only [Body.kind]; decide) (by decide) (by decide : Facet.minProperties ∈ _)
      simp [Body.ents, hn, OM.optEnt]
    · refine uint (k := "maxProperties") ?_ (by decide) (by simp only [Body.kind]; decide) (by decide) (by decide : Facet.maxProperties ∈ _)
      simp [Body.ents, hn, OM.optEnt]
  | _ => trivial

private theorem mem_optEnt {k : Scalar} {v : Node} : (k, v) ∈ OM.optEnt k (some v) :=
  List.mem_singleton.mpr rfl

/-- What was parsed, is tidy, and can be read back after writing, satisfies `Writable`. -/
theorem writable_of_reread {X : Xyml} (hX : Lawful X) {t : DT} (hp : Parsed t) :
    Tidy t → ∀ t', hat X (t.toYAML X) = .ok t' → Writable t := by
  induction hp with
  | @basic i s x hx =>
    intro ht t' hr
    cases ht with
    | basic hs =>
      cases i with
      | false =>
        rw [hs rfl]
        exact .nil ⟨hx.distinct, fun p hp => by
          obtain ⟨k, h1, h2⟩ := hx.keys p hp
          exact ⟨k, h1, h2, .inl rfl⟩⟩
      | true =>
        have hnil : x.ents = [] := by
          apply Classical.byContradiction
          intro hne
          obtain ⟨e, he⟩ := List.exists_mem_of_ne_nil _ hne
          obtain ⟨k, hk, hkn⟩ := hx.keys e he
          have hkt : k ≠ "type" := fun h => hkn (by rw [h]; decide)
          have hd : Distinct ((DT.basic true s x).ents X) := by
            refine List.nodup_cons.mpr ⟨fun hm => ?_, hx.distinct⟩
            obtain ⟨p, hp1, hp2⟩ := List.mem_map.mp hm
            obtain ⟨k', hk', hkn'⟩ := hx.keys p hp1
            rw [hp2] at hk'
            cases hk'
            exact hkn' (by decide)
          have hm : (Scalar.str k, e.2) ∈ (DT.basic true s x).ents X := by
            refine List.mem_cons_of_mem _ ?_
            rw [← hk]; exact he
          rw [toYAML_eq, finish_map (List.mem_map_of_mem (f := Prod.fst) hm) (type_key X _)
            (by simpa using hkt)] at hr
          obtain ⟨v, h1, h2⟩ := lastWins_suffix (A := []) (type_key X (DT.basic true s x))
          obtain rfl := val_of_distinct hd (type_mem X (DT.basic true s x)) h1
          have h3 : (Node.str "type", Node.scalar "!include" s) ∈
              asPairs X (lastWins ((DT.basic true s x).ents X)) := by
            rw [← hX.ofKey_str]
            exact List.mem_map_of_mem (f := fun e : Scalar × Node => (X.ofKey e.1, e.2)) h2
          obtain ⟨u, y, _, h4⟩ := hat_map_entry hr _ h3
          revert u y
          rw [facetOf_type (by rfl)]
          intro u y _ h4
          cases h4
        obtain ⟨es, b⟩ := x
        cases hnil
        exact .incl
  | @ext h b fs ps it hh hb hf1 hf2 hf3 _ hp1 hp2 hp3 hp4 _ hi1 _ _ ihp ihi =>
    intro ht t' hr
    cases ht with
    | ext hs hx he hes hps hit =>
    have hdef : extraWithDefault h = h.extra.ents := by
      unfold extraWithDefault; rw [hh.dflt]
    have hc : CleanHdr b.kind h := by
      refine ⟨?_, ?_, hh.annotations.distinct, hh.annotations.keys⟩
      · rw [hdef]; exact hh.extra.distinct
      · rw [hdef]
        intro p hp s hps
        obtain ⟨s', h1, h2⟩ := hh.extra.keys p hp
        rw [hps] at h1
        cases h1
        exact ⟨h2, (hx p hp s hps).2⟩
    have hd : Distinct ((DT.ext h b fs ps it).ents X) := dtEnts_distinct _ _ _ hc
    have hk : t'.kind = b.kind := (reread_kind X hX h b fs ps it hc t' hr).trans hs
    have hbasic : isBasic t'.kind = false := by rw [hk, isBasic_ext]
    have hann : h.annotations.ents = [] := by
      apply Classical.byContradiction
      intro hne
      have := (C39_type_annotations_false X hX h b fs ps it hne hh.annotations t' hr).1
      rw [hbasic] at this
      cases this
    have hfs : fs.ents = [] := by
      apply Classical.byContradiction
      intro hne
      exact C30_unreadable_false X hX h b fs ps it hf1 hne hc hs t' hr
    have entry : ∀ {k : String} {v : Node} {f : Facet}, (Scalar.str k, v) ∈ (DT.ext h b fs ps it).ents X →
        k ≠ "type" → k ∈ facetNames b.kind → facetNamed.lookup k = some f →
        ∃ s x, facetStep X b.kind (Node.str k) v f (look f s) = .ok x := by
      intro k v f hm hne hn hl
      have h1 : facetOf t'.kind (Node.str k, v) = f := by rw [hk]; exact name_facet hn hl
      obtain ⟨s, x, h2⟩ := reread_entry hX hd hm hne hr h1
      rw [hk] at h2
      exact ⟨s, x, h2⟩
    have common : ∀ {k : String}, k ∈ facetNames.common → k ∈ facetNames b.kind := by
      intro k hin
      cases b <;> first | exact hin | exact List.mem_append_left _ hin
    have hexample : ∀ e, h.example = some e → b.kind ≠ .any ∧ WritableExample b.kind e := by
      intro e hee
      obtain ⟨h1, h2⟩ := hh.example e hee
      refine ⟨h1, ?_⟩
      have hm : (Scalar.str "example", e.toYAML X) ∈ (DT.ext h b fs ps it).ents X := by
        simp only [DT.ents, dtEnts, Hdr.tailEnts, List.mem_append, hee, Option.map_some]
        simp [OM.optEnt]
      obtain ⟨s, x, h3⟩ := entry (f := .example) hm (by decide) (common (by decide)) (by decide)
      obtain ⟨e', h4, _⟩ := Res.map_eq_ok.mp h3
      unfold loadExample at h4
      obtain ⟨e0, h5, h6⟩ := Res.bind_eq_ok.mp h4
      have : e0 = Example.new b.kind := by
        revert h5
        cases b.kind <;> intro h5 <;> first | (cases h5; rfl) | cases h5
      rw [this] at h6
      exact example_of_read hX h2 (he e hee) h6
    have hexamples : ∀ e ∈ h.examples.ents, WritableExample b.kind e.2 := by
      intro e hee
      have hlen : h.examples.len > 0 := List.length_pos_of_mem hee
      have hm : (Scalar.str "examples", renderStrMap (Example.toYAML X) h.examples) ∈
          (DT.ext h b fs ps it).ents X := by
        simp only [DT.ents, dtEnts, Hdr.tailEnts, List.mem_append, if_pos hlen]
        simp [OM.optEnt]
      obtain ⟨s, x, h3⟩ := entry (f := .examples) hm (by decide) (common (by decide)) (by decide)
      have h3 : loadExamples X b.kind (look .examples s) (renderStrMap (Example.toYAML X) h.examples) =
        .ok x := h3
      unfold renderStrMap renderPairs at h3
      rw [hh.examplesFlag] at h3
      obtain ⟨s1, s2, h4⟩ := mapForEach_ok_mem h3 (Node.str e.1, e.2.toYAML X)
        (List.mem_map_of_mem (f := fun e : String × Example => (Node.str e.1, e.2.toYAML X)) hee)
      obtain ⟨_, _, h5⟩ := Res.bind_eq_ok.mp h4
      obtain ⟨e', h6, _⟩ := Res.map_eq_ok.mp h5
      exact example_of_read hX (hh.examples e hee) (hes e hee) h6
    have hhdr : WritableHdr b.kind h := by
      refine ⟨hs, ?_, ?_, fun l hl => (hh.enum l hl).2, hexample, fun _ => hh.examplesFlag,
        hh.examplesDistinct, hexamples⟩
      · rw [hdef]
        exact ⟨hh.extra.distinct, fun p hp => by
          obtain ⟨s, h1, h2⟩ := hh.extra.keys p hp
          exact ⟨s, h1, h2, .inr (hx p hp s h1)⟩⟩
      · exact ⟨hh.annotations.distinct, fun e he => by rw [hann] at he; cases he⟩
    have uint : ∀ {k : String} {n : Nat} {f : Facet},
        (Scalar.str k, X.ofInt n) ∈ b.ents X (propsNode X ps) (itemsNode X it) →
        k ≠ "type" → k ∈ facetNames b.kind → facetNamed.lookup k = some f →
        f ∈ [Facet.minLength, .maxLength, .minItems, .maxItems, .minProperties, .maxProperties] →
        IsSmall n := by
      intro k n f hm hne hn hl hf
      obtain ⟨s, x, h3⟩ := entry (body_mem hm) hne hn hl
      revert s x
      simp only [List.mem_cons, List.not_mem_nil, or_false] at hf
      rcases hf with rfl | rfl | rfl | rfl | rfl | rfl <;>
      · intro s x h3
        obtain ⟨y, h4, _⟩ := Res.map_eq_ok.mp h3
        exact small_of_read hX h4
    have hbody : WritableBody b := body_in_range (fun f hf => by subst hf; exact hb) uint
    refine .ext hhdr hbody (fun hne => absurd hfs hne) hf2 ?_ ?_ (fun hne => ⟨hp3 hne, hp1⟩) hp2 hp4
      ?_ hi1 ?_
    · intro f hf; rw [hfs] at hf; cases hf
    · intro f hf; rw [hfs] at hf; cases hf
    · intro e hee
      have hne : ps.ents ≠ [] := List.ne_nil_of_mem hee
      have hkind := hp3 hne
      have hobj : ∃ f, b = .object f := by cases b <;> first | exact ⟨_, rfl⟩ | cases hkind
      obtain ⟨f, rfl⟩ := hobj
      have hnode : propsNode X ps = some (.map (typeEnts X ps.ents)) := by
        obtain ⟨es, o⟩ := ps
        cases hp1
        have : es.length > 0 := List.length_pos_of_mem hee
        unfold propsNode
        rw [if_pos this]
        rfl
      have hm : (Scalar.str "properties", Node.map (typeEnts X ps.ents)) ∈
          (Body.object f).ents X (propsNode X ps) (itemsNode X it) := by
        simp [Body.ents, hnode, OM.optEnt]
      obtain ⟨s, x, h3⟩ := entry (f := .properties) (body_mem hm) (by decide) (by simp only [Body.kind]; decide) (by decide)
      have h3 : loadPropsL X (typeEnts X ps.ents) (look .properties s) = .ok x := h3
      have h3 := (loadPropsL_eq X _ _).symm.trans h3
      have hmem : (Node.str e.1, e.2.toYAML X) ∈ typeEnts X ps.ents := by
        rw [typeEnts_eq]
        exact List.mem_map_of_mem (f := fun e : String × DT => (Node.str e.1, e.2.toYAML X)) hee
      obtain ⟨s1, s2, _, h4⟩ := forPairs_mem (I := fun _ => True) (fun _ _ _ _ _ _ => trivial) _ _ _
        trivial h3 _ hmem
      obtain ⟨u, h5, _⟩ := loadProp_ok h4
      exact ihp e hee (hps e hee) u h5
    · intro t hti
      have hkind := hi1 (by rw [hti]; simp)
      have harr : ∃ f, b = .array f := by cases b <;> first | exact ⟨_, rfl⟩ | cases hkind
      obtain ⟨f, rfl⟩ := harr
      have hm : (Scalar.str "items", t.toYAML X) ∈
          (Body.array f).ents X (propsNode X ps) (itemsNode X it) := by
        subst hti
        have : itemsNode X (some t) = some (t.toYAML X) := by unfold itemsNode; rfl
        simp [Body.ents, this, OM.optEnt]
      obtain ⟨s, x, h3⟩ := entry (f := .items) (body_mem hm) (by decide) (by simp only [Body.kind]; decide) (by decide)
      obtain ⟨u, h4, _⟩ := Res.map_eq_ok.mp h3
      exact ihi t hti (hit t hti) u h4

/-! ### Writing what was read back -/

private theorem anns_empty {flag : Bool} {m : OM String Ann} (h : ParsedAnns flag m)
    (hw : WritableAnns m) : m = ⟨[], flag⟩ := by
  obtain ⟨es, b⟩ := m
  cases h.omap
  cases es with
  | nil => rfl
  | cons e es =>
    have h1 := (h.values e (by simp)).1
    rw [(hw.2 e (by simp)).2.1] at h1
    cases h1

private theorem canonExample_id {kd : Kind} {e : Example} (h : ParsedExample kd e)
    (hw : WritableExample kd e) : canonExample e = e := by
  have h1 := anns_empty h.annotations hw.annotations
  have h2 := h.extraFlag
  obtain ⟨k, dn, ds, v, an, st, ⟨es, b⟩⟩ := e
  cases h1
  cases h2
  rfl

/-- For parsed types that can be read back, writing what is read gives the same node. -/
theorem canon_written {X : Xyml} {t : DT} (hp : Parsed t) :
    Writable t → (canon t).toYAML X = t.toYAML X := by
  induction hp with
  | basic hx =>
    intro _
    rw [canon, toYAML_eq, toYAML_eq]
    rfl
  | @ext h b fs ps it hh hb hf1 hf2 hf3 _ hp1 hp2 hp3 hp4 _ hi1 _ _ ihp ihi =>
    intro hw
    cases hw with
    | ext wh wb wf1 wf2 wf3 wf4 wp1 wp2 wp3 wp4 wi1 wi2 =>
    have hfs : fs.ents = [] := by
      apply Classical.byContradiction
      intro hne
      have := wf1 hne
      rw [hf1] at this
      cases this
    have hann := anns_empty hh.annotations wh.annotations
    have hhdr : ∀ f p i, dtEnts X (Hdr.canon h) b f p i = dtEnts X h b f p i := by
      intro f p i
      have h1 : (Hdr.canon h).extra.ents = h.extra.ents := by
        simp [Hdr.canon, extraWithDefault, hh.dflt]
      have h2 : (Hdr.canon h).annotations = h.annotations := by
        simp [Hdr.canon, hann, canonAnns]
      have h3 : (Hdr.canon h).xml.map XML.toYAML = h.xml.map XML.toYAML := by
        simp only [Hdr.canon, Option.map_map]
        rfl
      have h4 : (Hdr.canon h).enum = h.enum := by
        cases he : h.enum with
        | none => simp [Hdr.canon, he]
        | some l =>
          cases l with
          | nil => exact absurd rfl (hh.enum _ he).1
          | cons => simp [Hdr.canon, he]
      have h5 : (Hdr.canon h).example = h.example := by
        cases he : h.example with
        | none => simp [Hdr.canon, he]
        | some e =>
          simp only [Hdr.canon, he, Option.map_some]
          rw [canonExample_id (hh.example e he).2 (wh.example e he).2]
      have h6 : (Hdr.canon h).examples = h.examples := by
        have hfl := hh.examplesFlag
        have hmap : h.examples.ents.map (fun e => (e.1, canonExample e.2)) = h.examples.ents := by
          conv => rhs; rw [← List.map_id h.examples.ents]
          apply List.map_congr_left
          intro e he
          rw [canonExample_id (hh.examples e he) (wh.examplesEach e he)]
          rfl
        simp only [Hdr.canon, hmap]
        cases hx : h.examples with
        | mk es o => rw [hx] at hfl; cases hfl; rfl
      have h7 : (Hdr.canon h).dflt = h.dflt := by rw [hh.dflt]; rfl
      have h8 : (Hdr.canon h).headEnts = h.headEnts := rfl
      have h9 : (Hdr.canon h).reqEnts X = h.reqEnts X := rfl
      unfold dtEnts Hdr.tailEnts
      rw [h1, h2, h3, h4, h5, h6, h7, h8, h9]
    have hf : facetsNode X (canonFacets fs) = facetsNode X fs := by
      obtain ⟨es, o⟩ := fs
      cases hfs
      cases hf1
      rfl
    have hpn : propsNode X (canonTypes false ps) = propsNode X ps := by
      obtain ⟨es, o⟩ := ps
      cases hp1
      have : typeEnts X (canonEnts es) = typeEnts X es := by
        rw [canonEnts_eq, typeEnts_eq, typeEnts_eq, List.map_map]
        apply List.map_congr_left
        intro e he
        show (Node.str e.1, (canon e.2).toYAML X) = _
        rw [ihp e he (wp4 e he)]
      rw [canonTypes, propsNode, propsNode, this, canonEnts_eq, List.length_map]
    have hin : itemsNode X (canonItems it) = itemsNode X it := by
      cases it with
      | none => rw [canonItems]
      | some t => rw [canonItems, itemsNode, itemsNode, ihi t rfl (wi2 t rfl)]
    rw [canon, toYAML_eq, toYAML_eq]
    show finish X ((OM.empty false).putAll (dtEnts X _ b _ _ _)) = finish X ((OM.empty false).putAll
      (dtEnts X h b _ _ _))
    rw [hhdr, hf, hpn, hin]

/-- C48 for data types: if a type parses, is tidy, and what is written from it parses again, then
writing that gives the same node tree. -/
theorem C48_type_fixed_point (X : Xyml) (hX : Lawful X) (n : Node) (t u : DT)
    (h1 : hat X n = .ok t) (ht : Tidy t) (h2 : hat X (t.toYAML X) = .ok u) :
    u.toYAML X = t.toYAML X := by
  have hp := hat_parsed hX h1
  have hw := writable_of_reread hX hp ht u h2
  rw [hat_toYAML hX hw] at h2
  cases h2
  exact canon_written hp hw

/-! ### API documents -/

/-- The types of an API document are tidy and its unknown entries have keys that mean nothing
else. -/
structure TidyApi (a : APISpec) : Prop where
  extraKeys : ∀ p ∈ a.extra.ents, ∀ s, p.1 = .str s →
    s ∉ apiKeys.map Prod.fst ∧ s ≠ "" ∧ s.toList.head? ≠ some '(' ∧ s.toList.head? ≠ some '/'
  types : ∀ e ∈ a.types.ents, Tidy e.2

private theorem types_written {X : Xyml} {m : OM String DT} (hm : ParsedMap m)
    (hp : ∀ e ∈ m.ents, Parsed e.2) (hw : ∀ e ∈ m.ents, Writable e.2) :
    ifNonEmpty (canonTypes false m) (typeMapNode X (canonTypes false m)) =
      ifNonEmpty m (typeMapNode X m) := by
  obtain ⟨es, o⟩ := m
  cases hm.1
  have : typeEnts X (canonEnts es) = typeEnts X es := by
    rw [canonEnts_eq, typeEnts_eq, typeEnts_eq, List.map_map]
    apply List.map_congr_left
    intro e he
    show (Node.str e.1, (canon e.2).toYAML X) = _
    rw [canon_written (hp e he) (hw e he)]
  rw [canonTypes, typeMapNode, typeMapNode, this]
  unfold ifNonEmpty OM.len
  simp only [canonEnts_eq, List.length_map]

private theorem types_writable {X : Xyml} (hX : Lawful X) {m : OM String DT} (hm : m.omap = false)
    (hp : ∀ e ∈ m.ents, Parsed e.2) (ht : ∀ e ∈ m.ents, Tidy e.2) {x y : OM String DT}
    (h : loadTypes X (typeMapNode X m) x = .ok y) : ∀ e ∈ m.ents, Writable e.2 := by
  intro e he
  obtain ⟨es, o⟩ := m
  cases hm
  have h : loadTypesL X (typeEnts X es) x = .ok y := by
    unfold typeMapNode renderPairs at h
    exact h
  rw [loadTypesL_eq] at h
  have hmem : (Node.str e.1, e.2.toYAML X) ∈ typeEnts X es := by
    rw [typeEnts_eq]
    exact List.mem_map_of_mem (f := fun e : String × DT => (Node.str e.1, e.2.toYAML X)) he
  obtain ⟨s1, s2, _, h4⟩ := forPairs_mem (I := fun _ => True) (fun _ _ _ _ _ _ => trivial) _ _ _
    trivial h _ hmem
  obtain ⟨u, h5, _⟩ := loadType_ok h4
  exact writable_of_reread hX (hp e he) (ht e he) u h5

/-- A parsed document without clashing keys, without annotations, and with types that can be
written faithfully. -/
theorem api_writable {a : APISpec} (hp : ParsedApi a) (ht : TidyApi a) (hann : a.annotations.ents = [])
    (hty : ∀ e ∈ a.types.ents, Writable e.2) : WritableApi a := by
  have hc : CleanApi a :=
    { extra := hp.extra.2
      extraKeys := fun p hpm s hs => by
        obtain ⟨k1, k2, k3, k4⟩ := ht.extraKeys p hpm s hs
        refine ⟨fun hm => k1 ?_, k3, k4⟩
        have : ∀ s ∈ apiWriteKeys, s ∈ apiKeys.map Prod.fst := by decide
        exact this s hm
      annotations := hp.annotations.distinct
      annotationKeys := hp.annotations.keys
      resources := hp.resources.2
      resourceKeys := hp.resourceKeys }
  exact
    { clean := hc
      extraKeys := fun p hpm s hs => by
        obtain ⟨k1, k2, k3, k4⟩ := ht.extraKeys p hpm s hs
        refine ⟨k2, fun hm => k1 ?_⟩
        rw [hm]; decide
      uses := ⟨fun _ => hp.uses.1, hp.uses.2⟩
      securitySchemes := ⟨fun _ => hp.securitySchemes.1, hp.securitySchemes.2⟩
      baseURIParameters := ⟨fun _ => hp.baseURIParameters.1, hp.baseURIParameters.2⟩
      traits := ⟨fun _ => hp.traits.1, hp.traits.2⟩
      annotationTypes := ⟨fun _ => hp.annotationTypes.1, hp.annotationTypes.2⟩
      resourceTypes := ⟨fun _ => hp.resourceTypes.1, hp.resourceTypes.2⟩
      types := ⟨fun _ => hp.types.1, hp.types.2⟩
      typesEach := hty
      annotations := ⟨hp.annotations.distinct, fun e he => by rw [hann] at he; cases he⟩ }

/-- A parsed document without clashing keys that can be read again after writing could be written
faithfully; in particular it has no annotations. -/
theorem api_writable_of_reread {X : Xyml} (hX : Lawful X) {n : Node} {a b : APISpec}
    (h1 : parseApi X n = .ok a) (ht : TidyApi a) (h2 : parseApi X (a.toYAML X) = .ok b) :
    WritableApi a ∧ a.annotations.ents = [] := by
  have hp := parseApi_parsed hX h1
  have hc : CleanApi a :=
    { extra := hp.extra.2
      extraKeys := fun p hpm s hs => by
        obtain ⟨k1, k2, k3, k4⟩ := ht.extraKeys p hpm s hs
        refine ⟨fun hm => k1 ?_, k3, k4⟩
        have : ∀ s ∈ apiWriteKeys, s ∈ apiKeys.map Prod.fst := by decide
        exact this s hm
      annotations := hp.annotations.distinct
      annotationKeys := hp.annotations.keys
      resources := hp.resources.2
      resourceKeys := hp.resourceKeys }
  have hann : a.annotations.ents = [] := by
    apply Classical.byContradiction
    intro hne
    exact C39_api_annotations_false X hX a hc hne hp.annotations b h2
  have hty : ∀ e ∈ a.types.ents, Writable e.2 := by
    by_cases hne : a.types.ents = []
    · intro e he; rw [hne] at he; cases he
    · have hm : (Node.str "types", typeMapNode X a.types) ∈ asPairs X (a.ents X) := by
        rw [← hX.ofKey_str]
        refine List.mem_map_of_mem (f := fun e : Scalar × Node => (X.ofKey e.1, e.2))
          (a := (Scalar.str "types", typeMapNode X a.types)) ?_
        have : a.types.len > 0 := List.length_pos_iff.mpr hne
        simp [APISpec.ents, APISpec.typesEnts, ifNonEmpty, if_pos this, OM.optEnt]
      have h2' := h2
      rw [api_toYAML_clean hc] at h2'
      obtain ⟨x, y, h3⟩ := api_part_mem (a := APISpec.new) h2' hm
      revert x y
      rw [apiSectionOf_known (by decide : ("types", ApiSection.types) ∈ apiKeys)]
      intro x y h3
      exact types_writable hX hp.types.1 hp.typesEach ht.types h3
  exact ⟨api_writable hp ht hann hty, hann⟩

/-- C48: if an API document parses, is tidy, and what is written from it parses again, then
writing that again gives the same node tree. -/
theorem C48_fixed_point (X : Xyml) (hX : Lawful X) (n : Node) (a b : APISpec)
    (h1 : parseApi X n = .ok a) (ht : TidyApi a) (h2 : parseApi X (a.toYAML X) = .ok b) :
    b.toYAML X = a.toYAML X := by
  have hp := parseApi_parsed hX h1
  obtain ⟨hw, hann⟩ := api_writable_of_reread hX h1 ht h2
  have hty := hw.typesEach
  rw [parseApi_toYAML hX hw] at h2
  cases h2
  have hd : (canonApi a).documentation.map (renderList Documentation.toYAML) =
      a.documentation.map (renderList Documentation.toYAML) := by
    unfold canonApi
    cases hdoc : a.documentation with
    | none => rfl
    | some l =>
      cases l with
      | nil => exact absurd hdoc hp.documentation
      | cons d ds =>
        simp only [Option.map_some, renderList, List.map_map]
        rfl
  have hx : (canonApi a).extra.ents = a.extra.ents := rfl
  have hr : strEnts (canonApi a).resources = strEnts a.resources := rfl
  have ha : annEnts (canonApi a).annotations = annEnts a.annotations := by
    simp [canonApi, canonAnns, annEnts, hann]
  have e1 : (canonApi a).uses = a.uses := plainMap_of_flag hp.uses.1
  have e2 : (canonApi a).securitySchemes = a.securitySchemes := plainMap_of_flag hp.securitySchemes.1
  have e3 : (canonApi a).baseURIParameters = a.baseURIParameters :=
    plainMap_of_flag hp.baseURIParameters.1
  have e4 : (canonApi a).traits = a.traits := plainMap_of_flag hp.traits.1
  have e5 : (canonApi a).annotationTypes = a.annotationTypes := plainMap_of_flag hp.annotationTypes.1
  have e6 : (canonApi a).resourceTypes = a.resourceTypes := plainMap_of_flag hp.resourceTypes.1
  have e7 : ifNonEmpty (canonApi a).types (typeMapNode X (canonApi a).types) =
      ifNonEmpty a.types (typeMapNode X a.types) := types_written hp.types hp.typesEach hty
  unfold APISpec.toYAML APISpec.marshal
  rw [hd, hx, hr, ha, e1, e2, e3, e4, e5, e6, e7]
  rfl

/-! ### Libraries -/

/-- As `TidyApi`; in addition nothing was read from `annotationTypes` (C44), unless it looks like
an annotation. -/
structure TidyLib (l : Library) : Prop where
  extraKeys : ∀ p ∈ l.extra.ents, ∀ s, p.1 = .str s →
    s ∉ libKeys.map Prod.fst ∧ s ≠ "" ∧ s.toList.head? ≠ some '('
  annotationKeys : ∀ e ∈ l.annotations.ents, e.1.toList.head? = some '('
  types : ∀ e ∈ l.types.ents, Tidy e.2

/-- A parsed document without clashing keys, without annotations, and with types that can be
written faithfully. -/
theorem lib_writable {a : Library} (hp : ParsedLib a) (ht : TidyLib a) (hann : a.annotations.ents = [])
    (hty : ∀ e ∈ a.types.ents, Writable e.2) : WritableLib a := by
  have hc : CleanLib a :=
    { extra := hp.extra.2
      extraKeys := fun p hpm s hs => by
        obtain ⟨k1, k2, k3⟩ := ht.extraKeys p hpm s hs
        refine ⟨fun hm => k1 ?_, k3⟩
        have : ∀ s ∈ libWriteKeys, s ∈ libKeys.map Prod.fst := by decide
        exact this s hm
      annotations := hp.annotations.2
      annotationKeys := ht.annotationKeys }
  exact
    { clean := hc
      extraKeys := fun p hpm s hs => by
        obtain ⟨k1, k2, k3⟩ := ht.extraKeys p hpm s hs
        refine ⟨k2, fun hm => k1 ?_⟩
        rw [hm]; decide
      uses := ⟨fun _ => hp.uses.1, hp.uses.2⟩
      securitySchemes := ⟨fun _ => hp.securitySchemes.1, hp.securitySchemes.2⟩
      traits := ⟨fun _ => hp.traits.1, hp.traits.2⟩
      annotationTypes := by rw [hp.annotationTypes]; rfl
      resourceTypes := ⟨fun _ => hp.resourceTypes.1, hp.resourceTypes.2⟩
      types := ⟨fun _ => hp.types.1, hp.types.2⟩
      typesEach := hty
      annotations := ⟨hp.annotations.2, fun e he => by rw [hann] at he; cases he⟩ }

/-- As `api_writable_of_reread`, for libraries. -/
theorem lib_writable_of_reread {X : Xyml} (hX : Lawful X) {o : Option Node} {a b : Library}
    (h1 : parseLibrary X o = .ok a) (ht : TidyLib a)
    (h2 : parseLibrary X (some (a.toYAML X)) = .ok b) :
    WritableLib a ∧ a.annotations.ents = [] := by
  have hp := parseLibrary_parsed hX h1
  have hc : CleanLib a :=
    { extra := hp.extra.2
      extraKeys := fun p hpm s hs => by
        obtain ⟨k1, k2, k3⟩ := ht.extraKeys p hpm s hs
        refine ⟨fun hm => k1 ?_, k3⟩
        have : ∀ s ∈ libWriteKeys, s ∈ libKeys.map Prod.fst := by decide
        exact this s hm
      annotations := hp.annotations.2
      annotationKeys := ht.annotationKeys }
  have hann : a.annotations.ents = [] := by
    apply Classical.byContradiction
    intro hne
    exact C39_library_annotations_false X hX a hc hne hp b h2
  have hty : ∀ e ∈ a.types.ents, Writable e.2 := by
    by_cases hne : a.types.ents = []
    · intro e he; rw [hne] at he; cases he
    · have hm : (Node.str "types", typeMapNode X a.types) ∈ asPairs X (a.ents X) := by
        rw [← hX.ofKey_str]
        refine List.mem_map_of_mem (f := fun e : Scalar × Node => (X.ofKey e.1, e.2))
          (a := (Scalar.str "types", typeMapNode X a.types)) ?_
        have : a.types.len > 0 := List.length_pos_iff.mpr hne
        simp [Library.ents, ifNonEmpty, if_pos this, OM.optEnt]
      have h2' := h2
      rw [lib_toYAML_clean hc] at h2'
      obtain ⟨x, y, h3⟩ := lib_part_mem (a := Library.new) h2' hm
      revert x y
      rw [libSectionOf_known (by decide : ("types", LibSection.types) ∈ libKeys)]
      intro x y h3
      exact types_writable hX hp.types.1 hp.typesEach ht.types h3
  exact ⟨lib_writable hp ht hann hty, hann⟩

/-- C48, for libraries. -/
theorem C48_library_fixed_point (X : Xyml) (hX : Lawful X) (o : Option Node) (a b : Library)
    (h1 : parseLibrary X o = .ok a) (ht : TidyLib a)
    (h2 : parseLibrary X (some (a.toYAML X)) = .ok b) : b.toYAML X = a.toYAML X := by
  have hp := parseLibrary_parsed hX h1
  obtain ⟨hw, hann⟩ := lib_writable_of_reread hX h1 ht h2
  have hty := hw.typesEach
  rw [parseLibrary_toYAML hX hw] at h2
  cases h2
  have hx : (canonLib a).extra.ents = a.extra.ents := rfl
  have ha : annEnts (canonLib a).annotations = annEnts a.annotations := by
    simp [canonLib, canonAnns, annEnts, hann]
  have e1 : (canonLib a).uses = a.uses := plainMap_of_flag hp.uses.1
  have e2 : (canonLib a).securitySchemes = a.securitySchemes := plainMap_of_flag hp.securitySchemes.1
  have e4 : (canonLib a).traits = a.traits := plainMap_of_flag hp.traits.1
  have e5 : (canonLib a).annotationTypes = a.annotationTypes := hp.annotationTypes.symm
  have e6 : (canonLib a).resourceTypes = a.resourceTypes := plainMap_of_flag hp.resourceTypes.1
  have e7 : ifNonEmpty (canonLib a).types (typeMapNode X (canonLib a).types) =
      ifNonEmpty a.types (typeMapNode X a.types) := types_written hp.types hp.typesEach hty
  unfold Library.toYAML Library.marshal
  rw [hx, ha, e1, e2, e4, e5, e6, e7]
  rfl

/-! ### The conditions are needed -/

/-- The texts of the keys of a mapping, for telling written forms apart. -/
def keyTexts (n : Node) : List String := (mapEntries n).map fun p => p.1.value

/-- A type declared twice, first as a string and then as an integer. -/
def twiceTyped : Node :=
  .map [(.str "type", .str "string"), (.str "type", .str "integer"),
    (.str "pattern", .str "^x$"), (.str "required", .scalar "!!bool" "false")]

/-- C48: not for types whose `Type()` does not name their kind. Such types are parsed from
mappings with two `type` entries; the second writing has its entries in another order. -/
theorem C48_type_false : ∃ t u, hat Xyml.std twiceTyped = .ok t ∧
    hat Xyml.std (t.toYAML Xyml.std) = .ok u ∧ u.toYAML Xyml.std ≠ t.toYAML Xyml.std := by
  refine ⟨_, _, rfl, rfl, fun h => ?_⟩
  have h := congrArg keyTexts h
  revert h
  decide +kernel

/-- A library with an annotation type and a resource type. -/
def annotatedLib : Node :=
  .map [(.str "annotationTypes", .map [(.str "deprecated", .map [(.str "since", .str "1.0")])]),
    (.str "resourceTypes", .map [(.str "collection", .map [])])]

/-- C48: not for libraries with annotation types, which are read as annotations and become unknown
entries in the second reading. -/
theorem C48_library_false : ∃ a b, parseLibrary Xyml.std (some annotatedLib) = .ok a ∧
    parseLibrary Xyml.std (some (a.toYAML Xyml.std)) = .ok b ∧
    b.toYAML Xyml.std ≠ a.toYAML Xyml.std := by
  refine ⟨_, _, rfl, rfl, fun h => ?_⟩
  have h := congrArg keyTexts h
  revert h
  decide +kernel

/-- The hypotheses of `C48_type_fixed_point` are met: a string type with XML settings and an
extra facet.  What is read back is not the same type, but is written in the same way. -/
example : ∃ t u, hat Xyml.std (.map [(.str "color", .str "red"), (.str "type", .str "string"),
      (.str "xml", .map [(.str "name", .str "x")])]) = .ok t ∧ Tidy t ∧
    hat Xyml.std (t.toYAML Xyml.std) = .ok u ∧ u ≠ t := by
  refine ⟨_, _, rfl, .ext (by decide) ?_ (fun _ h => (nomatch h)) (fun _ h => (nomatch h))
    (fun _ h => (nomatch h)) (fun _ h => (nomatch h)), rfl, fun h => ?_⟩
  · intro p hp s hs
    simp only [List.mem_singleton, OM.put, Hdr.new, OM.empty, List.filter_nil, List.nil_append] at hp
    subst hp
    cases hs
    exact ⟨by decide, by decide⟩
  · cases h

/-- The hypotheses of `C48_fixed_point` are met, also with documentation, which is lost. -/
example : ∃ a b, parseApi Xyml.std (.map [(.str "version", .str "v1"), (.str "title", .str "T"),
      (.str "documentation", .seq seqTag [.map [(.str "title", .str "Home")]]),
      (.str "types", .map [(.str "Pet", .str "string")])]) = .ok a ∧ TidyApi a ∧
    parseApi Xyml.std (a.toYAML Xyml.std) = .ok b := by
  refine ⟨_, Res.isOk_iff.mp ?_ |>.choose, rfl, ⟨fun _ h => (nomatch h), ?_⟩,
    (Res.isOk_iff.mp ?_).choose_spec⟩
  · decide +kernel
  · intro e he
    simp only [List.mem_singleton, OM.put, APISpec.new, OM.empty, List.filter_nil,
      List.nil_append] at he
    subst he
    exact .ext (by decide) (fun _ h => (nomatch h)) (fun _ h => (nomatch h))
      (fun _ h => (nomatch h)) (fun _ h => (nomatch h)) (fun _ h => (nomatch h))
  · decide +kernel

/-- The hypotheses of `C48_library_fixed_point` are met. -/
example : ∃ a b, parseLibrary Xyml.std (some (.map [(.str "usage", .str "v1"),
      (.str "types", .map [(.str "Pet", .str "nil")])])) = .ok a ∧ TidyLib a ∧
    parseLibrary Xyml.std (some (a.toYAML Xyml.std)) = .ok b := by
  refine ⟨_, _, rfl, ⟨fun _ h => (nomatch h), fun _ h => (nomatch h), ?_⟩, rfl⟩
  intro e he
  simp only [List.mem_singleton, OM.put, Library.new, OM.empty, List.filter_nil,
    List.nil_append] at he
  subst he
  exact .basic fun _ => rfl

end Verif.Props
