import Verif.Props.Builder
import Verif.Props.TypeRoundTrip

/-! # C58: a type built with setters is read back as it was built -/

namespace Verif.Props
open Verif Verif.Doc Verif.Doc.Spec

/-! ### Acceptable arguments -/

/-- Extra facets that can be given to a type that may also have a default. -/
def GoodExtra (kd : Kind) (m : OM Scalar Node) : Prop :=
  WritableExtra kd m.ents ∧ ∀ p ∈ m.ents, p.1 ≠ .str "default"

/-- Named examples in a plain map, each of which is written in expanded form. -/
def GoodExamples (kd : Kind) (m : OM String Example) : Prop :=
  m.omap = false ∧ Distinct m.ents ∧ ∀ e ∈ m.ents, WritableExample kd e.2

/-- Facet definitions in plain maps, with types that can be read back. -/
def GoodFacets (m : OM String (OM String DT)) : Prop :=
  (m.ents ≠ [] → m.omap = false) ∧ Distinct m.ents ∧
    ∀ f ∈ m.ents, f.2.omap = false ∧ Distinct f.2.ents ∧ ∀ e ∈ f.2.ents, Writable e.2

/-- Properties in a plain map, with types that can be read back. -/
def GoodProps (m : OM String DT) : Prop :=
  m.omap = false ∧ Distinct m.ents ∧ ∀ e ∈ m.ents, e.2.isProperty = true ∧ Writable e.2

/-- The type name agrees with the kind; include types may have any. -/
def GoodName (kd : Kind) (s : String) : Prop := kd = .include ∨ classify s = kd

/-- Calls with arguments that can be written and read back, for a type of the given kind.
`UnsetExamples` and `UnsetProperties` are not among them, nor the setters of these with nil (C59
says why); an edit of a live map must keep it acceptable. -/
def GoodCall (kd : Kind) : TypeOp → Prop
  | .overrideType s | .setType s => GoodName kd s
  | .setExample e => ∀ x, e = some x → kd ≠ .any ∧ WritableExample kd x
  | .setExamples m => ∃ x, m = some x ∧ GoodExamples kd x
  | .unsetExamples => False
  | .setAnnotations m => ∀ x, m = some x → WritableAnns x
  | .setFacetDefinitions m => ∀ x, m = some x → GoodFacets x
  | .setEnum l => ∀ x, l = some x → ∀ v ∈ x, FitsEnum kd v
  | .setExtraFacets m => ∀ x, m = some x → GoodExtra kd x
  | .setMinLength n | .setMaxLength n | .setMinItems n | .setMaxItems n | .setMinProperties n
  | .setMaxProperties n => IsSmall n
  | .setItems t => ∀ x, t = some x → Writable x
  | .setProperties m => ∃ x, m = some x ∧ GoodProps x
  | .unsetProperties => False
  | .setIntMinimum i | .setIntMaximum i => IsInt64 i
  | .editExamples f => ∀ m, GoodExamples kd m → GoodExamples kd (f m)
  | .editAnnotations f => ∀ m, WritableAnns m → WritableAnns (f m)
  | .editFacets f => ∀ m, GoodFacets m → GoodFacets (f m)
  | .editExtra f => (kd ≠ .include → ∀ m, GoodExtra kd m → GoodExtra kd (f m)) ∧
      (kd = .include → ∀ m, m.ents = [] → (f m).ents = [])
  | .editProperties f => ∀ m, GoodProps m → GoodProps (f m)
  | _ => True

/-! ### They keep a type writable -/

structure GoodHdr (kd : Kind) (h : Hdr) : Prop where
  schema : classify h.schema = kd
  extra : GoodExtra kd h.extra
  annotations : WritableAnns h.annotations
  enum : ∀ l, h.enum = some l → ∀ v ∈ l, FitsEnum kd v
  «example» : ∀ e, h.example = some e → kd ≠ .any ∧ WritableExample kd e
  examples : GoodExamples kd h.examples

inductive GoodType : DT → Prop where
  | nil {s : String} {x : OM Scalar Node} : s = "nil" → GoodExtra .nil x →
      GoodType (.basic false s x)
  | incl {s : String} {x : OM Scalar Node} : x.ents = [] → GoodType (.basic true s x)
  | ext {h : Hdr} {b : Body} {fs : OM String (OM String DT)} {ps : OM String DT}
      {it : Option DT} :
      GoodHdr b.kind h → WritableBody b → GoodFacets fs →
      (ps.ents ≠ [] → b.kind = .object) → GoodProps ps →
      (it ≠ none → b.kind = .array) → (∀ t, it = some t → Writable t) →
      GoodType (.ext h b fs ps it)

theorem plainKey_default : PlainKey "default" := ⟨by decide, by decide⟩

theorem default_notMem (kd : Kind) : "default" ∉ facetNames kd := by cases kd <;> decide

theorem GoodHdr.writable {kd : Kind} {h : Hdr} (hd : GoodHdr kd h) : WritableHdr kd h where
  schema := hd.schema
  extra := by
    unfold extraWithDefault
    cases hh : h.dflt with
    | none => exact hd.extra.1
    | some d =>
      refine ⟨?_, ?_⟩
      · unfold Distinct
        rw [List.map_cons, List.nodup_cons]
        refine ⟨?_, hd.extra.1.1⟩
        intro hm
        obtain ⟨p, hp, he⟩ := List.mem_map.mp hm
        exact hd.extra.2 p hp he
      · intro p hp
        rcases List.mem_cons.mp hp with rfl | hp
        · exact ⟨_, rfl, default_notMem kd, Or.inr plainKey_default⟩
        · exact hd.extra.1.2 p hp
  annotations := hd.annotations
  enum := hd.enum
  «example» := hd.example
  examples := fun _ => hd.examples.1
  examplesDistinct := hd.examples.2.1
  examplesEach := hd.examples.2.2

theorem GoodType.writable {t : DT} (h : GoodType t) : Writable t := by
  cases h with
  | nil hs hx => subst hs; exact .nil hx.1
  | incl hx => rename_i x; cases x; cases hx; exact .incl
  | ext hh hb hf hp hps hi hit =>
    exact .ext hh.writable hb hf.1 hf.2.1 (fun f hm => ⟨(hf.2.2 f hm).1, (hf.2.2 f hm).2.1⟩)
      (fun f hm => (hf.2.2 f hm).2.2) (fun hne => ⟨hp hne, hps.1⟩) hps.2.1
      (fun e hm => (hps.2.2 e hm).1) (fun e hm => (hps.2.2 e hm).2) hi hit

theorem goodExtra_empty (kd : Kind) (b : Bool) : GoodExtra kd ⟨[], b⟩ :=
  ⟨⟨List.nodup_nil, by simp⟩, by simp⟩

theorem goodHdr_new (kd : Kind) (h : classify kd.name = kd) : GoodHdr kd (Hdr.new kd) where
  schema := h
  extra := goodExtra_empty _ _
  annotations := ⟨List.nodup_nil, by simp [Hdr.new, OM.empty]⟩
  enum := by simp [Hdr.new]
  «example» := by simp [Hdr.new]
  examples := ⟨rfl, List.nodup_nil, by simp [Hdr.new, OM.empty]⟩

theorem goodFacets_empty (b : Bool) : GoodFacets ⟨[], b⟩ :=
  ⟨fun h => absurd rfl h, List.nodup_nil, by simp⟩

theorem goodFacets_orFresh {m : Option (OM String (OM String DT))}
    (h : ∀ x, m = some x → GoodFacets x) : GoodFacets (orFresh m) := by
  cases m with
  | none => exact goodFacets_empty _
  | some x => exact h x rfl

theorem goodProps_empty : GoodProps ⟨[], false⟩ := ⟨rfl, List.nodup_nil, by simp⟩

theorem goodType_newExt (b : Body) (h : classify b.kind.name = b.kind) (hb : WritableBody b) :
    GoodType (DT.newExt b) :=
  .ext (goodHdr_new _ h) hb (goodFacets_empty _) (fun h => absurd rfl h) goodProps_empty
    (fun h => absurd rfl h) (by simp)

theorem goodType_new (kd : Kind) (h : kd ≠ .union) : GoodType (DT.new kd) := by
  cases kd <;> first
    | exact absurd rfl h
    | exact .nil rfl (goodExtra_empty _ _)
    | exact .incl rfl
    | exact goodType_newExt _ (by decide) (by simp [WritableBody, IsSmall])

theorem goodHdr_apply {kd : Kind} {h h' : Hdr} {op : TypeOp} (hk : isBasic kd = false)
    (hd : GoodHdr kd h) (ho : GoodCall kd op) (ha : h.apply op = some h') : GoodHdr kd h' := by
  have hi : kd ≠ .include := by rintro rfl; cases hk
  have name : ∀ s, GoodName kd s → classify s = kd := fun s h => h.resolve_left hi
  obtain ⟨h1, h2, h3, h4, h5, h6⟩ := hd
  cases op <;> simp only [Hdr.apply, Option.some.injEq, reduceCtorEq] at ha <;> subst ha
  case overrideType s => exact ⟨name s ho, h2, h3, h4, h5, h6⟩
  case setType s => exact ⟨name s ho, h2, h3, h4, h5, h6⟩
  case setExample e => exact ⟨h1, h2, h3, h4, ho, h6⟩
  case unsetExample => exact ⟨h1, h2, h3, h4, nofun, h6⟩
  case setExamples m => obtain ⟨x, rfl, hx⟩ := ho; exact ⟨h1, h2, h3, h4, h5, hx⟩
  case unsetExamples => exact ho.elim
  case setAnnotations m =>
    cases m with
    | none => exact ⟨h1, h2, ⟨List.nodup_nil, nofun⟩, h4, h5, h6⟩
    | some x => exact ⟨h1, h2, ho x rfl, h4, h5, h6⟩
  case unsetAnnotations => exact ⟨h1, h2, ⟨List.nodup_nil, nofun⟩, h4, h5, h6⟩
  case setEnum l => exact ⟨h1, h2, h3, ho, h5, h6⟩
  case unsetEnum => exact ⟨h1, h2, h3, nofun, h5, h6⟩
  case setExtraFacets m =>
    cases m with
    | none => exact ⟨h1, goodExtra_empty _ _, h3, h4, h5, h6⟩
    | some x => exact ⟨h1, ho x rfl, h3, h4, h5, h6⟩
  case unsetExtraFacets => exact ⟨h1, goodExtra_empty _ _, h3, h4, h5, h6⟩
  case editExamples f => exact ⟨h1, h2, h3, h4, h5, ho _ h6⟩
  case editAnnotations f => exact ⟨h1, h2, ho _ h3, h4, h5, h6⟩
  case editExtra f => exact ⟨h1, ho.1 hi _ h2, h3, h4, h5, h6⟩
  all_goals exact ⟨h1, h2, h3, h4, h5, h6⟩

theorem body_apply_kind {b b' : Body} {op : TypeOp} (h : b.apply op = some b') :
    b'.kind = b.kind := by
  cases op <;> cases b <;> simp [Body.apply] at h <;> subst h <;> rfl

theorem writableBody_apply {b b' : Body} {op : TypeOp} (hb : WritableBody b)
    (ho : GoodCall b.kind op) (ha : b.apply op = some b') : WritableBody b' := by
  cases op <;> cases b <;> simp only [Body.apply, Option.some.injEq, reduceCtorEq] at ha <;>
    subst ha <;> simp_all [WritableBody, GoodCall]

theorem body_not_basic (b : Body) : isBasic b.kind = false := by cases b <;> rfl

theorem eq_nil_of_classify {s : String} (h : classify s = .nil) : s = "nil" := by
  unfold classify at h
  cases hl : builtins.lookup s with
  | none =>
    rw [hl] at h
    simp only at h
    split at h
    · cases h
    · split at h <;> cases h
  | some k =>
    rw [hl] at h
    simp only at h
    subst h
    obtain ⟨l₁, l₂, he, _⟩ := List.lookup_eq_some_iff.mp hl
    have hm : (s, Kind.nil) ∈ builtins := by rw [he]; simp
    simpa [builtins] using hm

/-- The calls on extended types that do not change the header or the body. -/
theorem ext_apply {h : Hdr} {b : Body} {fs : OM String (OM String DT)} {ps : OM String DT}
    {it : Option DT} {op : TypeOp} {u : DT} (ha : (DT.ext h b fs ps it).apply op = some u) :
    (∃ h', h.apply op = some h' ∧ u = .ext h' b fs ps it) ∨
    (∃ b', b.apply op = some b' ∧ u = .ext h b' fs ps it) ∨
    (∃ fs', u = .ext h b fs' ps it ∧ (GoodFacets fs → GoodCall b.kind op → GoodFacets fs')) ∨
    (∃ ps', u = .ext h b fs ps' it ∧ b.kind = .object ∧
      (GoodProps ps → GoodCall b.kind op → GoodProps ps')) ∨
    (∃ it', u = .ext h b fs ps it' ∧ b.kind = .array ∧
      (GoodCall b.kind op → ∀ t, it' = some t → Writable t)) := by
  unfold DT.apply at ha
  split at ha
  case h_1 => contradiction
  case h_2 => contradiction
  case h_3 => contradiction
  case h_12 =>
    rename_i heq _ _ _ _ _ _ _ _
    injection heq with e1 e2 e3 e4 e5
    subst e1 e2 e3 e4 e5
    split at ha
    · rename_i h' hh
      exact Or.inl ⟨h', hh, (Option.some.inj ha).symm⟩
    · obtain ⟨b', hb, rfl⟩ := Option.map_eq_some_iff.mp ha
      exact Or.inr (Or.inl ⟨b', hb, rfl⟩)
  all_goals
    rename_i heq
    injection heq with e1 e2 e3 e4 e5
    subst e1 e2 e3 e4 e5
    replace ha := (Option.some.inj ha).symm
  · exact .inr (.inr (.inl ⟨_, ha, fun _ ho => goodFacets_orFresh ho⟩))
  · exact .inr (.inr (.inl ⟨_, ha, fun _ _ => goodFacets_empty _⟩))
  · exact .inr (.inr (.inl ⟨_, ha, fun h ho => ho _ h⟩))
  · refine .inr (.inr (.inr (.inl ⟨_, ha, rfl, fun _ ho => ?_⟩)))
    obtain ⟨x, rfl, hx⟩ := ho
    exact hx
  · exact .inr (.inr (.inr (.inl ⟨_, ha, rfl, fun _ ho => ho.elim⟩)))
  · exact .inr (.inr (.inr (.inl ⟨_, ha, rfl, fun h ho => ho _ h⟩)))
  · exact .inr (.inr (.inr (.inr ⟨_, ha, rfl, fun ho => ho⟩)))
  · exact .inr (.inr (.inr (.inr ⟨_, ha, rfl, fun _ => nofun⟩)))

theorem goodType_apply {t u : DT} {op : TypeOp} (ht : GoodType t) (ho : GoodCall t.kind op)
    (ha : t.apply op = some u) : GoodType u := by
  cases ht with
  | nil hs hx =>
    cases op <;> simp only [DT.apply, Option.some.injEq, reduceCtorEq] at ha <;> subst ha
    case overrideType s =>
      refine .nil ?_ hx
      exact eq_nil_of_classify (ho.resolve_left (by simp [DT.kind]))
    case editExtra f => exact .nil hs (ho.1 (by simp [DT.kind]) _ hx)
  | incl hx =>
    cases op <;> simp only [DT.apply, Option.some.injEq, reduceCtorEq] at ha <;> subst ha
    case overrideType s => exact .incl hx
    case editExtra f => exact .incl (ho.2 rfl _ hx)
  | @ext h b fs ps it hh hb hf hp hps hi hit =>
    have ho' : GoodCall b.kind op := ho
    rcases ext_apply ha with ⟨h', h1, rfl⟩ | ⟨b', h1, rfl⟩ | ⟨fs', rfl, h1⟩ | ⟨ps', rfl, hk, h1⟩ |
      ⟨it', rfl, hk, h1⟩
    · exact .ext (goodHdr_apply (body_not_basic b) hh ho' h1) hb hf hp hps hi hit
    · have hk := body_apply_kind h1
      exact .ext (hk ▸ hh) (writableBody_apply hb ho' h1) hf (hk ▸ hp) hps (hk ▸ hi) hit
    · exact .ext hh hb (h1 hf ho') hp hps hi hit
    · exact .ext hh hb hf (fun _ => hk) (h1 hps ho') hi hit
    · exact .ext hh hb hf hp hps (fun _ => hk) (h1 ho')

theorem goodType_applyAll {t u : DT} {ops : List TypeOp} (ht : GoodType t)
    (ho : ∀ op ∈ ops, GoodCall t.kind op) (ha : t.applyAll ops = some u) : GoodType u := by
  induction ops generalizing t with
  | nil => rw [← applyAll_nil.mp ha]; exact ht
  | cons op ops ih =>
    obtain ⟨v, h1, h2⟩ := applyAll_cons.mp ha
    refine ih (goodType_apply ht (ho op (by simp)) h1) ?_ h2
    intro o hm
    rw [apply_kind h1]
    exact ho o (by simp [hm])

/-! ### Entries added through the live maps -/

theorem mem_put {K V : Type} [DecidableEq K] {m : OM K V} {k : K} {v : V} {e : K × V}
    (h : e ∈ (m.put k v).ents) : e = (k, v) ∨ e ∈ m.ents := by
  simp only [OM.put, List.mem_append, List.mem_filter, List.mem_singleton] at h
  rcases h with h | h
  · exact .inr h.1
  · exact .inl h

/-- C58: adding a property, an example, an annotation or an extra facet through the map that the
getter returns is an acceptable call, if what is added can be written. -/
theorem C58_live_maps (kd : Kind) :
    (∀ k t, t.isProperty = true → Writable t → GoodCall kd (.editProperties (·.put k t))) ∧
    (∀ k e, WritableExample kd e → GoodCall kd (.editExamples (·.put k e))) ∧
    (∀ k a, k.toList.head? = some '(' → a.omap = false → Distinct a.ents →
      GoodCall kd (.editAnnotations (·.put k a))) ∧
    (∀ s n, kd ≠ .include → s ∉ facetNames kd → s ≠ "default" → (isBasic kd = true ∨ PlainKey s) →
      GoodCall kd (.editExtra (·.put (.str s) n))) := by
  refine ⟨?_, ?_, ?_, ?_⟩
  · intro k t h1 h2 m hm
    refine ⟨hm.1, OM.nodup_put (m := m) k t hm.2.1, fun e he => ?_⟩
    rcases mem_put he with rfl | he
    · exact ⟨h1, h2⟩
    · exact hm.2.2 e he
  · intro k x h m hm
    refine ⟨hm.1, OM.nodup_put (m := m) k x hm.2.1, fun e he => ?_⟩
    rcases mem_put he with rfl | he
    · exact h
    · exact hm.2.2 e he
  · intro k a h1 h2 h3 m hm
    refine ⟨OM.nodup_put (m := m) k a hm.1, fun e he => ?_⟩
    rcases mem_put he with rfl | he
    · exact ⟨h1, h2, h3⟩
    · exact hm.2 e he
  · intro s n hk h1 h2 h3
    refine ⟨fun _ m hm => ⟨⟨OM.nodup_put (m := m) _ n hm.1.1, fun p hp => ?_⟩, fun p hp => ?_⟩,
      fun h => absurd h hk⟩
    · rcases mem_put hp with rfl | hp
      · exact ⟨s, rfl, h1, h3⟩
      · exact hm.1.2 p hp
    · rcases mem_put hp with rfl | hp
      · exact fun h => h2 (Scalar.str.inj h)
      · exact hm.2 p hp

/-! ### Reading back -/

/-- C58: a type made by a constructor and any history of calls with acceptable arguments is written
in a form that is read back, as `canon` says. -/
theorem C58_built_read_back (X : Xyml) (hX : Lawful X) (kd : Kind) (hk : kd ≠ .union)
    (ops : List TypeOp) (u : DT) (hu : (DT.new kd).applyAll ops = some u)
    (ho : ∀ op ∈ ops, GoodCall kd op) : hat X (u.toYAML X) = .ok (canon u) := by
  refine C26_read_back X hX u (goodType_applyAll (goodType_new kd hk) ?_ hu).writable
  rw [kind_new]
  exact ho

/-- The facets whose values are not maps, examples, types or lists of values. -/
def isScalarFacet : Facet → Bool
  | .enum | .example | .examples | .xml | .facets | .annotations | .extra | .properties
  | .items => false
  | _ => true

theorem look_canon (t : DT) (f : Facet) (hf : isScalarFacet f = true) :
    look f (canon t) = look f t := by
  cases t with
  | basic i s x => cases f <;> first | rfl | cases hf
  | ext h b fs ps it => cases f <;> first | rfl | cases hf

theorem canonEnts_keys (es : List (String × DT)) :
    (canonEnts es).map Prod.fst = es.map Prod.fst := by
  induction es with
  | nil => rfl
  | cons e es ih =>
    rw [canonEnts, List.map_cons, List.map_cons, ih]
    cases e; rfl

theorem canonFacetEnts_keys (es : List (String × OM String DT)) :
    (canonFacetEnts es).map Prod.fst = es.map Prod.fst := by
  induction es with
  | nil => rfl
  | cons e es ih =>
    rw [canonFacetEnts, List.map_cons, List.map_cons, ih]
    cases e; rfl

/-- C58: each setting made with a setter, with the last call winning, is what the getter of the type
read back reports; so are the names of the properties and the item type. -/
theorem C58_settings_survive (X : Xyml) (hX : Lawful X) (kd : Kind) (hk : kd ≠ .union)
    (ops : List TypeOp) (u : DT) (hu : (DT.new kd).applyAll ops = some u)
    (ho : ∀ op ∈ ops, GoodCall kd op) : ∃ r, hat X (u.toYAML X) = .ok r ∧ r.kind = kd ∧
      (∀ f, isScalarFacet f = true →
        look f r = ops.foldl (typeEffect kd f) (look f (DT.new kd))) ∧
      (properties r).keys = (properties u).keys ∧
      (examplesMap r).keys = (examplesMap u).keys ∧
      (annotationMap r).keys = (annotationMap u).keys ∧
      (facets r).keys = (facets u).keys ∧
      (enum u ≠ some [] → enum r = enum u) ∧
      ((dflt u = none ∧ r.extra.ents = u.extra.ents) ∨
        ∃ d, dflt u = some d ∧ r.extra.ents = (.str "default", d) :: u.extra.ents) := by
  refine ⟨canon u, C58_built_read_back X hX kd hk ops u hu ho, ?_, ?_, ?_⟩
  · have h := C57_kind _ _ _ hu
    rw [kind_new] at h
    rw [← h]
    cases u <;> rfl
  · intro f hf
    rw [look_canon u f hf, C57_history _ _ _ hu f, kind_new]
  · cases u with
    | basic i s x => exact ⟨rfl, rfl, rfl, rfl, fun _ => rfl, .inl ⟨rfl, rfl⟩⟩
    | ext h b fs ps it =>
      refine ⟨?_, ?_, ?_, ?_, ?_, ?_⟩
      · cases ps with
        | mk es o => exact canonEnts_keys es
      · show List.map _ (List.map _ _) = _
        rw [List.map_map]; rfl
      · show List.map _ (List.map _ _) = _
        rw [List.map_map]; rfl
      · cases fs with
        | mk es o => exact canonFacetEnts_keys es
      · show h.enum ≠ some [] → (match h.enum with | some [] => none | o => o) = h.enum
        intro hne
        split
        · rename_i he; exact absurd he hne
        · rfl
      · show (h.dflt = none ∧ extraWithDefault h = h.extra.ents) ∨ ∃ d, h.dflt = some d ∧
          extraWithDefault h = (.str "default", d) :: h.extra.ents
        unfold extraWithDefault
        cases h.dflt with
        | none => exact .inl ⟨rfl, rfl⟩
        | some d => exact .inr ⟨d, rfl, rfl⟩

/-! ### Types that come back unchanged -/

/-- Extra facets in an ordered-output map, as the constructors make. -/
def PlainExtra (kd : Kind) (m : OM Scalar Node) : Prop :=
  m.omap = true ∧ WritableExtra kd m.ents

/-- Properties in a plain map, with types that come back unchanged. -/
def PlainProps (m : OM String DT) : Prop :=
  m.omap = false ∧ Distinct m.ents ∧ ∀ e ∈ m.ents, e.2.isProperty = true ∧ Plain e.2

/-- Calls after which nothing is lost: no examples, annotations, facet definitions, XML settings or
default, no empty enum, and the other arguments can be written. -/
def PlainCall (kd : Kind) : TypeOp → Prop
  | .overrideType s | .setType s => GoodName kd s
  | .setDefault _ => False
  | .setExample e => e = none
  | .setExamples _ | .unsetExamples | .editExamples _ => False
  | .setAnnotations m => m = none
  | .editAnnotations _ => False
  | .setFacetDefinitions m => m = none
  | .editFacets _ => False
  | .setXML x => x = none
  | .setEnum l => ∀ x, l = some x → x ≠ [] ∧ ∀ v ∈ x, FitsEnum kd v
  | .setExtraFacets m => ∀ x, m = some x → PlainExtra kd x
  | .editExtra f => (kd ≠ .include → ∀ m, PlainExtra kd m → PlainExtra kd (f m)) ∧
      (kd = .include → f ⟨[], true⟩ = ⟨[], true⟩)
  | .setMinLength n | .setMaxLength n | .setMinItems n | .setMaxItems n | .setMinProperties n
  | .setMaxProperties n => IsSmall n
  | .setItems t => ∀ x, t = some x → Plain x
  | .setProperties m => ∃ x, m = some x ∧ PlainProps x
  | .unsetProperties => False
  | .editProperties f => ∀ m, PlainProps m → PlainProps (f m)
  | .setIntMinimum i | .setIntMaximum i => IsInt64 i
  | _ => True

inductive PlainType : DT → Prop where
  | nil {s : String} {x : OM Scalar Node} : s = "nil" → PlainExtra .nil x →
      PlainType (.basic false s x)
  | incl {s : String} {x : OM Scalar Node} : x = ⟨[], true⟩ → PlainType (.basic true s x)
  | ext {h : Hdr} {b : Body} {fs : OM String (OM String DT)} {ps : OM String DT}
      {it : Option DT} :
      PlainHdr b.kind h → WritableBody b → fs = ⟨[], true⟩ →
      (ps.ents ≠ [] → b.kind = .object) → PlainProps ps →
      (it ≠ none → b.kind = .array) → (∀ t, it = some t → Plain t) →
      PlainType (.ext h b fs ps it)

theorem PlainType.plain {t : DT} (h : PlainType t) : Plain t := by
  cases h with
  | nil hs hx =>
    rename_i x
    subst hs
    cases x with
    | mk es o => cases hx.1; exact .nil hx.2
  | incl hx => subst hx; exact .incl
  | @ext h b fs ps it hh hb hf hp hps hi hit =>
    subst hf
    cases ps with
    | mk es o =>
      cases hps.1
      exact .ext hh hb hp hps.2.1 (fun e hm => (hps.2.2 e hm).1) (fun e hm => (hps.2.2 e hm).2)
        hi hit

theorem plainHdr_new (kd : Kind) (h : classify kd.name = kd) : PlainHdr kd (Hdr.new kd) where
  schema := h
  extra := ⟨List.nodup_nil, nofun⟩
  extraFlag := rfl
  annotations := rfl
  xml := rfl
  dflt := rfl
  enum := nofun
  «example» := rfl
  examples := rfl

theorem plainType_newExt (b : Body) (h : classify b.kind.name = b.kind) (hb : WritableBody b) :
    PlainType (DT.newExt b) :=
  .ext (plainHdr_new _ h) hb rfl (fun h => absurd rfl h) ⟨rfl, List.nodup_nil, nofun⟩
    (fun h => absurd rfl h) nofun

theorem plainType_new (kd : Kind) (h : kd ≠ .union) : PlainType (DT.new kd) := by
  cases kd <;> first
    | exact absurd rfl h
    | exact .nil rfl ⟨rfl, List.nodup_nil, nofun⟩
    | exact .incl rfl
    | exact plainType_newExt _ (by decide) (by simp [WritableBody, IsSmall])

theorem plainHdr_apply {kd : Kind} {h h' : Hdr} {op : TypeOp} (hk : isBasic kd = false)
    (hd : PlainHdr kd h) (ho : PlainCall kd op) (ha : h.apply op = some h') : PlainHdr kd h' := by
  have hi : kd ≠ .include := by rintro rfl; cases hk
  have name : ∀ s, GoodName kd s → classify s = kd := fun s h => h.resolve_left hi
  obtain ⟨h1, h2, h3, h4, h5, h6, h7, h8, h9⟩ := hd
  cases op <;> simp only [Hdr.apply, Option.some.injEq, reduceCtorEq] at ha <;> subst ha
  case overrideType s => exact ⟨name s ho, h2, h3, h4, h5, h6, h7, h8, h9⟩
  case setType s => exact ⟨name s ho, h2, h3, h4, h5, h6, h7, h8, h9⟩
  case setDefault e => exact ho.elim
  case unsetDefault => exact ⟨h1, h2, h3, h4, h5, rfl, h7, h8, h9⟩
  case setExample e => exact ⟨h1, h2, h3, h4, h5, h6, h7, ho, h9⟩
  case unsetExample => exact ⟨h1, h2, h3, h4, h5, h6, h7, rfl, h9⟩
  case setExamples m => exact ho.elim
  case unsetExamples => exact ho.elim
  case setAnnotations m => cases ho; exact ⟨h1, h2, h3, rfl, h5, h6, h7, h8, h9⟩
  case unsetAnnotations => exact ⟨h1, h2, h3, rfl, h5, h6, h7, h8, h9⟩
  case setXML m => exact ⟨h1, h2, h3, h4, ho, h6, h7, h8, h9⟩
  case unsetXML => exact ⟨h1, h2, h3, h4, rfl, h6, h7, h8, h9⟩
  case setEnum l => exact ⟨h1, h2, h3, h4, h5, h6, ho, h8, h9⟩
  case unsetEnum => exact ⟨h1, h2, h3, h4, h5, h6, nofun, h8, h9⟩
  case setExtraFacets m =>
    cases m with
    | none => exact ⟨h1, ⟨List.nodup_nil, nofun⟩, rfl, h4, h5, h6, h7, h8, h9⟩
    | some x => exact ⟨h1, (ho x rfl).2, (ho x rfl).1, h4, h5, h6, h7, h8, h9⟩
  case unsetExtraFacets =>
    exact ⟨h1, ⟨List.nodup_nil, nofun⟩, rfl, h4, h5, h6, h7, h8, h9⟩
  case editExamples f => exact ho.elim
  case editAnnotations f => exact ho.elim
  case editExtra f =>
    have := ho.1 hi _ ⟨h3, h2⟩
    exact ⟨h1, this.2, this.1, h4, h5, h6, h7, h8, h9⟩
  all_goals exact ⟨h1, h2, h3, h4, h5, h6, h7, h8, h9⟩

theorem writableBody_plain {b b' : Body} {op : TypeOp} (hb : WritableBody b)
    (ho : PlainCall b.kind op) (ha : b.apply op = some b') : WritableBody b' := by
  refine writableBody_apply hb ?_ ha
  cases op <;> first
    | exact ho
    | exact True.intro
    | (cases b <;> cases ha)

theorem plainType_apply {t u : DT} {op : TypeOp} (ht : PlainType t) (ho : PlainCall t.kind op)
    (ha : t.apply op = some u) : PlainType u := by
  cases ht with
  | nil hs hx =>
    cases op <;> simp only [DT.apply, Option.some.injEq, reduceCtorEq] at ha <;> subst ha
    case overrideType s =>
      exact .nil (eq_nil_of_classify (ho.resolve_left (by simp [DT.kind]))) hx
    case editExtra f => exact .nil hs (ho.1 (by simp [DT.kind]) _ hx)
  | incl hx =>
    subst hx
    cases op <;> simp only [DT.apply, Option.some.injEq, reduceCtorEq] at ha <;> subst ha
    case overrideType s => exact .incl rfl
    case editExtra f => exact .incl (ho.2 rfl)
  | @ext h b fs ps it hh hb hf hp hps hi hit =>
    have ho' : PlainCall b.kind op := ho
    unfold DT.apply at ha
    split at ha
    case h_1 => contradiction
    case h_2 => contradiction
    case h_3 => contradiction
    case h_12 =>
      rename_i heq _ _ _ _ _ _ _ _
      injection heq with e1 e2 e3 e4 e5
      subst e1 e2 e3 e4 e5
      split at ha
      · rename_i h' h1
        cases ha
        exact .ext (plainHdr_apply (body_not_basic b) hh ho' h1) hb hf hp hps hi hit
      · obtain ⟨b', h1, rfl⟩ := Option.map_eq_some_iff.mp ha
        have hk := body_apply_kind h1
        exact .ext (hk ▸ hh) (writableBody_plain hb ho' h1) hf (hk ▸ hp) hps (hk ▸ hi) hit
    all_goals
      rename_i heq
      injection heq with e1 e2 e3 e4 e5
      subst e1 e2 e3 e4 e5
      cases Option.some.inj ha
    · cases ho'; exact .ext hh hb rfl hp hps hi hit
    · exact .ext hh hb rfl hp hps hi hit
    · exact ho'.elim
    · obtain ⟨x, rfl, hx⟩ := ho'
      exact .ext hh hb hf (fun _ => rfl) hx hi hit
    · exact ho'.elim
    · exact .ext hh hb hf (fun _ => rfl) (ho' _ hps) hi hit
    · exact .ext hh hb hf hp hps (fun _ => rfl) ho'
    · exact .ext hh hb hf hp hps (fun _ => rfl) nofun

theorem plainType_applyAll {t u : DT} {ops : List TypeOp} (ht : PlainType t)
    (ho : ∀ op ∈ ops, PlainCall t.kind op) (ha : t.applyAll ops = some u) : PlainType u := by
  induction ops generalizing t with
  | nil => rw [← applyAll_nil.mp ha]; exact ht
  | cons op ops ih =>
    obtain ⟨v, h1, h2⟩ := applyAll_cons.mp ha
    refine ih (plainType_apply ht (ho op (by simp)) h1) ?_ h2
    intro o hm
    rw [apply_kind h1]
    exact ho o (by simp [hm])

/-- C58: a type built without examples, annotations, facet definitions, XML settings, a default or
an empty enum comes back exactly as it was built. -/
theorem C58_built_lossless (X : Xyml) (hX : Lawful X) (kd : Kind) (hk : kd ≠ .union)
    (ops : List TypeOp) (u : DT) (hu : (DT.new kd).applyAll ops = some u)
    (ho : ∀ op ∈ ops, PlainCall kd op) : hat X (u.toYAML X) = .ok u := by
  refine C26_lossless X hX u (plainType_applyAll (plainType_new kd hk) ?_ hu).plain
  rw [kind_new]
  exact ho

/-- C58: adding a property or an extra facet through the live map is such a call. -/
theorem C58_live_maps_plain (kd : Kind) :
    (∀ k t, t.isProperty = true → Plain t → PlainCall kd (.editProperties (·.put k t))) ∧
    (∀ s n, kd ≠ .include → s ∉ facetNames kd → (isBasic kd = true ∨ PlainKey s) →
      PlainCall kd (.editExtra (·.put (.str s) n))) := by
  refine ⟨?_, ?_⟩
  · intro k t h1 h2 m hm
    refine ⟨hm.1, OM.nodup_put (m := m) k t hm.2.1, fun e he => ?_⟩
    rcases mem_put he with rfl | he
    · exact ⟨h1, h2⟩
    · exact hm.2.2 e he
  · intro s n hk h1 h3
    refine ⟨fun _ m hm => ⟨hm.1, OM.nodup_put (m := m) _ n hm.2.1, fun p hp => ?_⟩,
      fun h => absurd h hk⟩
    rcases mem_put hp with rfl | hp
    · exact ⟨s, rfl, h1, h3⟩
    · exact hm.2.2 p hp

/-- C58: union types are excluded because their constructor gives them the name `union`, which is
read as a custom type. -/
theorem C58_union_false (X : Xyml) :
    ∃ r, hat X ((DT.new .union).toYAML X) = .ok r ∧ r.kind = .custom :=
  ⟨_, rfl, rfl⟩

/-- A string property with a pattern. -/
def nameProp : DT :=
  .ext (Hdr.new .string) (.string ⟨some "[a-z]+", 0, none⟩) (OM.empty true) (OM.empty false) none

/-- It is built by a setter. -/
example : (DT.new .string).applyAll [.setPattern "[a-z]+"] = some nameProp := rfl

theorem nameProp_plain : Plain nameProp :=
  (plainType_applyAll (ops := [.setPattern "[a-z]+"]) (plainType_new .string (by decide))
    (by intro op h; cases List.mem_singleton.mp h; exact True.intro) rfl).plain

theorem nameProp_writable : Writable nameProp :=
  (goodType_applyAll (ops := [.setPattern "[a-z]+"]) (goodType_new .string (by decide))
    (by intro op h; cases List.mem_singleton.mp h; exact True.intro) rfl).writable

/-- Building an object type: a description, twice, a string property with a pattern, a
discriminator, an extra facet. -/
def buildOps : List TypeOp :=
  [.setDescription "old", .setMinProperties 1, .setDescription "a person",
   .editProperties (·.put "name" nameProp),
   .setDiscriminator "kind", .editExtra (·.put (.str "x-id") (.str "7"))]

/-- It meets the hypotheses of `C58_built_lossless` and of `C58_settings_survive`. -/
example : (∃ u, (DT.new .object).applyAll buildOps = some u) ∧
    (∀ op ∈ buildOps, PlainCall .object op) ∧ ∀ op ∈ buildOps, GoodCall .object op := by
  refine ⟨⟨_, rfl⟩, ?_, ?_⟩
  · intro op hm
    simp only [buildOps, List.mem_cons, List.not_mem_nil, or_false] at hm
    rcases hm with rfl | rfl | rfl | rfl | rfl | rfl
    · exact True.intro
    · show IsSmall 1; unfold IsSmall; decide
    · exact True.intro
    · exact (C58_live_maps_plain _).1 _ _ rfl nameProp_plain
    · exact True.intro
    · exact (C58_live_maps_plain _).2 _ _ (by decide) (by decide) (.inr ⟨by decide, by decide⟩)
  · intro op hm
    simp only [buildOps, List.mem_cons, List.not_mem_nil, or_false] at hm
    rcases hm with rfl | rfl | rfl | rfl | rfl | rfl
    · exact True.intro
    · show IsSmall 1; unfold IsSmall; decide
    · exact True.intro
    · exact (C58_live_maps _).1 _ _ rfl nameProp_writable
    · exact True.intro
    · exact (C58_live_maps _).2.2.2 _ _ (by decide) (by decide) (by decide)
        (.inr ⟨by decide, by decide⟩)

end Verif.Props
