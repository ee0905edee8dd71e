import Verif.Props.Accept

/-! # C87: exactly which definitions and documents make the parser panic -/

namespace Verif.Props
open Verif Verif.Doc Verif.Doc.Spec

/-! ### Vocabulary -/

/-- The entry `p` stands in `ps` and every entry before it is acceptable. -/
def Reaches (ok : Node × Node → Prop) (ps : List (Node × Node)) (p : Node × Node) : Prop :=
  ∃ pre post, ps = pre ++ p :: post ∧ ∀ q ∈ pre, ok q

/-- The definitions nested directly in an entry of facet `f` are acceptable. -/
def NestedOk (X : Xyml) (v : Node) : Facet → Prop
  | .items => TypeOk X v
  | .properties => ∀ p ∈ mapEntries v, TypeOk X p.2
  | .facets => ∀ p ∈ mapEntries v, ∀ q ∈ mapEntries p.2, TypeOk X q.2
  | _ => True

/-- An acceptable entry of a type definition of kind `kd`, with everything nested in it. -/
def EntryOk (X : Xyml) (kd : Kind) (p : Node × Node) : Prop :=
  FacetOk X kd p.1 p.2 (facetOf kd p) ∧ NestedOk X p.2 (facetOf kd p)

/-- The type definition makes the parser panic: reading the entries in order, everything is
acceptable up to an empty key (in a definition that is neither nil nor an include, or in an
expanded example), or up to a property that is defined as nil or as an include. -/
inductive Crashes (X : Xyml) : Crash → Node → Prop where
  /-- An empty key. -/
  | key {ps kd v} : kindOf ps = some kd → isBasic kd = false →
      Reaches (EntryOk X kd) ps (.str "", v) → Crashes X .emptyKey (.map ps)
  /-- An empty key in an expanded example. -/
  | inExample {ps qs kd k w} : kindOf ps = some kd → hasExamples kd = true →
      Reaches (EntryOk X kd) ps (k, .map qs) → k.value = "example" →
      Reaches (ExampleEntryOk X kd) qs (.str "", w) → Crashes X .emptyKey (.map ps)
  /-- An empty key in one of several expanded examples. -/
  | inExamples {ps qs rs kd k k' w} : kindOf ps = some kd → isBasic kd = false →
      Reaches (EntryOk X kd) ps (k, .map qs) → k.value = "examples" →
      Reaches (fun q => q.1.isStr = true ∧ ExampleOk X kd q.2) qs (k', .map rs) →
      k'.isStr = true → Reaches (ExampleEntryOk X kd) rs (.str "", w) →
      Crashes X .emptyKey (.map ps)
  /-- A property defined as nil or as an include. -/
  | property {ps qs k k' w} : kindOf ps = some .object →
      Reaches (EntryOk X .object) ps (k, .map qs) → k.value = "properties" →
      Reaches (fun q => q.1.isStr = true ∧ TypeOk X q.2 ∧ ¬ DefBasic q.2) qs (k', w) →
      k'.isStr = true → TypeOk X w → DefBasic w → Crashes X .notProperty (.map ps)
  /-- A property whose definition makes the parser panic. -/
  | inProperty {ps qs k k' w c} : kindOf ps = some .object →
      Reaches (EntryOk X .object) ps (k, .map qs) → k.value = "properties" →
      Reaches (fun q => q.1.isStr = true ∧ TypeOk X q.2 ∧ ¬ DefBasic q.2) qs (k', w) →
      k'.isStr = true → Crashes X c w → Crashes X c (.map ps)
  /-- An item type whose definition makes the parser panic. -/
  | inItems {ps k w c} : kindOf ps = some .array →
      Reaches (EntryOk X .array) ps (k, w) → k.value = "items" →
      Crashes X c w → Crashes X c (.map ps)
  /-- A facet declaration containing a definition that makes the parser panic. -/
  | inFacet {ps qs rs kd k k' k'' w c} : kindOf ps = some kd → isBasic kd = false →
      Reaches (EntryOk X kd) ps (k, .map qs) → k.value = "facets" →
      Reaches (fun q => q.1.isStr = true ∧ StrMap q.2 ∧ ∀ r ∈ mapEntries q.2, TypeOk X r.2) qs
        (k', .map rs) → k'.isStr = true →
      Reaches (fun r => r.1.isStr = true ∧ TypeOk X r.2) rs (k'', w) → k''.isStr = true →
      Crashes X c w → Crashes X c (.map ps)

/-- The API document makes the parser panic: reading the top-level entries in order, everything is
acceptable up to an empty key or up to a type that makes the parser panic. -/
inductive ApiCrashes (X : Xyml) : Crash → Node → Prop where
  /-- An empty key. -/
  | key {ps v} : Reaches (fun p => ApiPartOk X p.1 p.2 (apiSectionOf p)) ps (.str "", v) →
      ApiCrashes X .emptyKey (.map ps)
  /-- A type that makes the parser panic. -/
  | type {ps qs s k w c} : s = "types" ∨ s = "schemas" →
      Reaches (fun p => ApiPartOk X p.1 p.2 (apiSectionOf p)) ps (.str s, .map qs) →
      Reaches (fun q => q.1.isStr = true ∧ TypeOk X q.2) qs (k, w) → k.isStr = true →
      Crashes X c w → ApiCrashes X c (.map ps)

/-- The library makes the parser panic, for the same reasons. -/
inductive LibCrashes (X : Xyml) : Crash → Node → Prop where
  /-- An empty key. -/
  | key {ps v} : Reaches (fun p => LibPartOk X p.1 p.2 (libSectionOf p)) ps (.str "", v) →
      LibCrashes X .emptyKey (.map ps)
  /-- A type that makes the parser panic. -/
  | type {ps qs k k' w c} : k.value = "types" ∨ k.value = "schemas" →
      Reaches (fun p => LibPartOk X p.1 p.2 (libSectionOf p)) ps (k, .map qs) →
      Reaches (fun q => q.1.isStr = true ∧ TypeOk X q.2) qs (k', w) → k'.isStr = true →
      Crashes X c w → LibCrashes X c (.map ps)

/-! ### Loops -/

theorem reaches_nil {ok : Node × Node → Prop} {p : Node × Node} : ¬ Reaches ok [] p := by
  rintro ⟨pre, post, h, _⟩
  cases pre <;> cases h

theorem reaches_cons {ok : Node × Node → Prop} {q p : Node × Node} {ps : List (Node × Node)} :
    Reaches ok (q :: ps) p ↔ q = p ∨ ok q ∧ Reaches ok ps p := by
  constructor
  · rintro ⟨pre, post, h, hok⟩
    cases pre with
    | nil => cases h; exact .inl rfl
    | cons r pre =>
      cases h
      exact .inr ⟨hok _ (by simp), pre, post, rfl, fun x hx => hok x (by simp [hx])⟩
  · rintro (rfl | ⟨h1, pre, post, rfl, hok⟩)
    · exact ⟨[], ps, rfl, by simp⟩
    · exact ⟨q :: pre, post, rfl, by simpa using ⟨h1, fun a b h => hok (a, b) h⟩⟩

theorem reaches_mem {ok : Node × Node → Prop} {p : Node × Node} {ps : List (Node × Node)}
    (h : Reaches ok ps p) : p ∈ ps := by
  obtain ⟨pre, post, rfl, _⟩ := h
  simp

theorem reaches_congr {ok ok' : Node × Node → Prop} {p : Node × Node} {ps : List (Node × Node)}
    (h : ∀ q ∈ ps, (ok q ↔ ok' q)) : Reaches ok ps p ↔ Reaches ok' ps p := by
  constructor
  · rintro ⟨pre, post, rfl, hok⟩
    exact ⟨pre, post, rfl, fun q hq => (h q (by simp [hq])).mp (hok q hq)⟩
  · rintro ⟨pre, post, rfl, hok⟩
    exact ⟨pre, post, rfl, fun q hq => (h q (by simp [hq])).mpr (hok q hq)⟩

theorem panic_pairs {σ : Type} {f : Node → Node → σ → Res σ} {I : σ → Prop} {c : Crash}
    {Q P : Node × Node → Prop} (hI : ∀ k v s s', I s → f k v s = .ok s' → I s') :
    ∀ ps s, (∀ p ∈ ps, ∀ s, I s → (Acc (f p.1 p.2 s) ↔ Q p)) →
      (∀ p ∈ ps, ∀ s, I s → (f p.1 p.2 s = .panic c ↔ P p)) → I s →
      (forPairs f ps s = .panic c ↔ ∃ p, Reaches Q ps p ∧ P p) := by
  intro ps
  induction ps with
  | nil =>
    intro s _ _ _
    constructor
    · intro h; cases h
    · rintro ⟨p, h, _⟩; exact absurd h reaches_nil
  | cons p ps ih =>
    intro s hQ hP hs
    have h1 := hQ p (by simp) s hs
    have h2 := hP p (by simp) s hs
    have ih := fun s hs => ih s (fun p hp => hQ p (by simp [hp])) (fun p hp => hP p (by simp [hp]))
      hs
    simp only [reaches_cons]
    refine Res.bind_eq_panic.trans ?_
    constructor
    · rintro (h | ⟨s1, h3, h4⟩)
      · exact ⟨p, .inl rfl, h2.mp h⟩
      · obtain ⟨q, hq, hPq⟩ := (ih s1 (hI _ _ _ _ hs h3)).mp h4
        exact ⟨q, .inr ⟨h1.mp ⟨s1, h3⟩, hq⟩, hPq⟩
    · rintro ⟨q, rfl | ⟨hp, hq⟩, hPq⟩
      · exact .inl (h2.mpr hPq)
      · obtain ⟨s1, h3⟩ := h1.mpr hp
        exact .inr ⟨s1, h3, (ih s1 (hI _ _ _ _ hs h3)).mpr ⟨q, hq, hPq⟩⟩

/-- A loader of a dictionary panics iff the value of some entry does, and the entries before it
are acceptable. -/
theorem panic_loader {V : Type} {g : Node → Res V} {m : OM String V} {v : Node} {c : Crash} :
    mapForEach (fun k v m => (asString k).bind fun s => (g v).map fun x => m.put s x) v m =
      .panic c ↔ ∃ qs k w, v = .map qs ∧ Reaches (fun q => q.1.isStr = true ∧ Acc (g q.2)) qs
        (k, w) ∧ k.isStr = true ∧ g w = .panic c := by
  cases v with
  | scalar a b => simp [mapForEach]
  | seq a b => simp [mapForEach]
  | map qs =>
    have hP : ∀ p ∈ qs, ∀ m : OM String V, True →
        ((fun k v (m : OM String V) => (asString k).bind fun s => (g v).map fun x => m.put s x)
          p.1 p.2 m = .panic c ↔ p.1.isStr = true ∧ g p.2 = .panic c) := by
      intro p _ m _
      by_cases hs : p.1.isStr = true
      · simp [asString, hs, Res.map_eq_panic]
      · simp [asString, hs]
    have := panic_pairs (c := c) (I := fun _ => True)
      (f := fun k v (m : OM String V) => (asString k).bind fun s => (g v).map fun x => m.put s x)
      (Q := fun q => q.1.isStr = true ∧ Acc (g q.2))
      (P := fun q => q.1.isStr = true ∧ g q.2 = .panic c) (fun _ _ _ _ _ _ => trivial) qs m
      (fun p _ s _ => acc_bind_asString.trans (and_congr_right fun _ => acc_map)) hP trivial
    refine Iff.trans this ?_
    constructor
    · rintro ⟨⟨k, w⟩, h1, h2, h3⟩
      exact ⟨qs, k, w, rfl, h1, h2, h3⟩
    · rintro ⟨_, k, w, he, h1, h2, h3⟩
      cases he
      exact ⟨(k, w), h1, h2, h3⟩

/-! ### Examples -/

theorem Example.assign_panic_iff {X : Xyml} {k v : Node} {e : Example} {c : Crash} :
    Example.assign X k v e = .panic c ↔ k = Node.str "" ∧ c = .emptyKey := by
  refine ⟨Example.assign_panic, ?_⟩
  rintro ⟨rfl, rfl⟩
  rfl

/-- C87: exactly which examples make the parser panic. -/
theorem C87_example (X : Xyml) (kd : Kind) (v : Node) (c : Crash) :
    (Example.new kd).unmarshal X v = .panic c ↔ c = .emptyKey ∧ ∃ qs w, v = .map qs ∧
      Reaches (ExampleEntryOk X kd) qs (.str "", w) := by
  cases v with
  | map qs =>
    have := panic_pairs (f := Example.assign X) (c := c) (I := fun u : Example => u.kind = kd)
      (fun k v s s' hI h => by
        rcases example_assign h with ⟨_, _, _, rfl⟩ | ⟨_, _, _, rfl⟩ | ⟨_, _, _, rfl⟩ |
          ⟨_, _, _, rfl⟩ | ⟨_, _, _, _, rfl⟩ | ⟨_, _, _, _, rfl⟩ <;> exact hI)
      qs (Example.new kd) (fun p _ s hs => acc_exampleEntry hs)
      (fun p _ s _ => Example.assign_panic_iff) rfl
    refine Iff.trans this ?_
    constructor
    · rintro ⟨⟨k, w⟩, h1, h2, h3⟩
      have h2 : k = _ := h2
      subst h2
      exact ⟨h3, qs, w, rfl, h1⟩
    · rintro ⟨h3, _, w, he, h1⟩
      cases he
      exact ⟨(.str "", w), h1, rfl, h3⟩
  | scalar a b =>
    exact ⟨fun h => absurd h (map_panic exampleVal_panic), fun ⟨_, _, _, h, _⟩ => nomatch h⟩
  | seq a b =>
    exact ⟨fun h => absurd h (map_panic exampleVal_panic), fun ⟨_, _, _, h, _⟩ => nomatch h⟩

theorem loadExample_panic_iff {X : Xyml} {kd : Kind} {v : Node} {c : Crash} :
    loadExample X kd v = .panic c ↔ hasExamples kd = true ∧
      (Example.new kd).unmarshal X v = .panic c := by
  unfold loadExample
  cases kd <;> simp [exampleSortingHat, hasExamples, isBasic]

/-! ### Type definitions -/

theorem loadTypes_panic_iff {X : Xyml} {v : Node} {m : OM String DT} {c : Crash} :
    loadTypes X v m = .panic c ↔ ∃ qs k w, v = .map qs ∧
      Reaches (fun q => q.1.isStr = true ∧ TypeOk X q.2) qs (k, w) ∧ k.isStr = true ∧
      hat X w = .panic c := by
  rw [loadTypes_eq, loadType_form, panic_loader]
  simp only [Acc, C54_type_accepted]

theorem loadFacets_panic_iff {X : Xyml} {v : Node} {m : OM String (OM String DT)} {c : Crash} :
    loadFacets X v m = .panic c ↔ ∃ qs k w, v = .map qs ∧
      Reaches (fun q => q.1.isStr = true ∧ StrMap q.2 ∧ ∀ r ∈ mapEntries q.2, TypeOk X r.2) qs
        (k, w) ∧ k.isStr = true ∧ loadTypes X w (OM.empty true) = .panic c := by
  rw [loadFacets_eq]
  have : (fun k v m => loadFacet X (k, v) m) = fun k v (m : OM String (OM String DT)) =>
      (asString k).bind fun s => (loadTypes X v (OM.empty true)).map fun x => m.put s x := by
    funext k v m
    unfold loadFacet
    rfl
  rw [this, panic_loader]
  simp only [acc_loadTypes, C54_type_accepted]

/-- The result of one property. -/
private def propOf (X : Xyml) (v : Node) : Res DT :=
  (hat X v).bind fun t => if t.isProperty then .ok t else .panic .notProperty

private theorem acc_propOf {X : Xyml} {v : Node} :
    Acc (propOf X v) ↔ TypeOk X v ∧ ¬ DefBasic v := by
  rw [← C54_type_accepted]
  constructor
  · rintro ⟨u, hu⟩
    obtain ⟨t, ht, h2⟩ := Res.bind_eq_ok.mp hu
    split at h2
    · rename_i hp
      refine ⟨⟨t, ht⟩, fun hd => ?_⟩
      rw [hat_of_defBasic hd ht] at hp
      cases hp
    · cases h2
  · rintro ⟨⟨t, ht⟩, hd⟩
    refine ⟨t, ?_⟩
    unfold propOf
    rw [ht]
    cases hp : t.isProperty with
    | true => simp [hp]
    | false => exact absurd (defBasic_of_hat ht hp) hd

private theorem propOf_panic {X : Xyml} {v : Node} {c : Crash} :
    propOf X v = .panic c ↔ hat X v = .panic c ∨ c = .notProperty ∧ TypeOk X v ∧ DefBasic v := by
  rw [← C54_type_accepted]
  refine Res.bind_eq_panic.trans (or_congr_right ?_)
  constructor
  · rintro ⟨t, ht, h⟩
    split at h
    · cases h
    · rename_i hp
      cases h
      exact ⟨rfl, ⟨t, ht⟩, defBasic_of_hat ht (by simpa using hp)⟩
  · rintro ⟨rfl, ⟨t, ht⟩, hd⟩
    exact ⟨t, ht, by rw [if_neg (by simp [hat_of_defBasic hd ht])]⟩

theorem loadProps_panic_iff {X : Xyml} {v : Node} {m : OM String DT} {c : Crash} :
    loadProps X v m = .panic c ↔ ∃ qs k w, v = .map qs ∧
      Reaches (fun q => q.1.isStr = true ∧ TypeOk X q.2 ∧ ¬ DefBasic q.2) qs (k, w) ∧
      k.isStr = true ∧ (hat X w = .panic c ∨ c = .notProperty ∧ TypeOk X w ∧ DefBasic w) := by
  rw [loadProps_eq]
  have : (fun k v m => loadProp X (k, v) m) = fun k v (m : OM String DT) =>
      (asString k).bind fun s => (propOf X v).map fun x => m.put s x := by
    funext k v m
    unfold loadProp propOf
    congr 1
    funext s
    cases hat X v with
    | ok t =>
      simp only [Res.bind_ok]
      split <;> rfl
    | err e => rfl
    | panic c => rfl
  rw [this, panic_loader]
  simp only [acc_propOf, propOf_panic]

/-- What makes an entry of facet `f` panic, in terms of the nested definitions. -/
def StepPanics (X : Xyml) (kd : Kind) (c : Crash) (k v : Node) : Facet → Prop
  | .extra => isBasic kd = false ∧ k = Node.str "" ∧ c = .emptyKey
  | .example => hasExamples kd = true ∧ (Example.new kd).unmarshal X v = .panic c
  | .examples => ∃ qs k w, v = .map qs ∧
      Reaches (fun q => q.1.isStr = true ∧ ExampleOk X kd q.2) qs (k, w) ∧ k.isStr = true ∧
      (Example.new kd).unmarshal X w = .panic c
  | .properties => ∃ qs k w, v = .map qs ∧
      Reaches (fun q => q.1.isStr = true ∧ TypeOk X q.2 ∧ ¬ DefBasic q.2) qs (k, w) ∧
      k.isStr = true ∧ (hat X w = .panic c ∨ c = .notProperty ∧ TypeOk X w ∧ DefBasic w)
  | .items => hat X v = .panic c
  | .facets => ∃ qs k w, v = .map qs ∧
      Reaches (fun q => q.1.isStr = true ∧ StrMap q.2 ∧ ∀ r ∈ mapEntries q.2, TypeOk X r.2) qs
        (k, w) ∧ k.isStr = true ∧ ∃ rs k' u, w = .map rs ∧
      Reaches (fun q => q.1.isStr = true ∧ TypeOk X q.2) rs (k', u) ∧ k'.isStr = true ∧
      hat X u = .panic c
  | _ => False

theorem facet_panic {X : Xyml} {kd : Kind} {k v : Node} {f : Facet} {c : Crash}
    (x : f.Ty) : facetStep X kd k v f x = .panic c ↔ StepPanics X kd c k v f := by
  have no : ∀ {α : Type} {r : Res α}, r ≠ .panic c → (r = .panic c ↔ False) :=
    fun h => ⟨h, False.elim⟩
  cases f
  case extra =>
    simp only [facetStep, StepPanics]
    constructor
    · intro h
      split at h
      · rename_i hc
        cases h
        simp only [Bool.and_eq_true, Bool.not_eq_true', beq_iff_eq] at hc
        exact ⟨hc.1.1, eq_emptyStr hc.1.2 hc.2, rfl⟩
      · cases h
    · rintro ⟨hb, rfl, rfl⟩
      rw [if_pos (by rw [hb]; rfl)]
  case «example» => exact Res.map_eq_panic.trans loadExample_panic_iff
  case examples =>
    refine Iff.trans (panic_loader (g := fun v => (Example.new kd).unmarshal X v)) ?_
    simp only [Acc, C54_example_accepted, StepPanics]
  case facets =>
    refine loadFacets_panic_iff.trans ?_
    simp only [loadTypes_panic_iff, StepPanics]
  case properties => exact loadProps_panic_iff
  case items => exact Res.map_eq_panic
  case type => exact no asString_panic
  case required => exact no asBool_panic
  case enum => exact no loadEnum_panic
  case xml => exact no (map_panic loadXML_panic)
  case annotations => exact no (map_panic loadAnn_panic)
  case discriminatorValue => exact no (fun h => nomatch h)
  case fileTypes => exact no (map_panic asStringList_panic)
  case multipleOf => exact no (map_panic asFlt_panic)
  case minimum | maximum =>
    cases kd <;> first
      | exact no (map_panic asInt_panic)
      | exact no (map_panic asFlt_panic)
  case format =>
    cases kd <;> first
      | exact no (map_panic asString_panic)
      | (refine no (map_panic ?_)
         unfold loadDateFormat
         split <;> exact fun h => nomatch h)
  all_goals first
    | exact no (map_panic asString_panic)
    | exact no (map_panic asBool_panic)
    | exact no (map_panic asUint_panic)

private theorem entry_acc {X : Xyml} {kd : Kind} {p : Node × Node} :
    FacetOk X kd p.1 p.2 (facetOf kd p) ∧ SubsOk X p.2 (facetOf kd p) ↔ EntryOk X kd p := by
  unfold EntryOk
  refine and_congr_right fun _ => ?_
  cases facetOf kd p <;> simp only [SubsOk, NestedOk, C54_type_accepted]

/-- One level: a mapping panics iff its kind is known and some entry panics after acceptable
ones. -/
private theorem hat_map_panic {X : Xyml} {ps : List (Node × Node)} {c : Crash} :
    hat X (.map ps) = .panic c ↔ ∃ kd, kindOf ps = some kd ∧ isBasic kd = false ∧
      ∃ p, Reaches (EntryOk X kd) ps p ∧ StepPanics X kd c p.1 p.2 (facetOf kd p) := by
  have loop : ∀ (t0 : DT) (kd : Kind), t0.kind = kd → (assignAll X ps t0 = .panic c ↔
      ∃ p, Reaches (EntryOk X kd) ps p ∧ StepPanics X kd c p.1 p.2 (facetOf kd p)) := by
    intro t0 kd h0
    rw [assignAll_eq]
    refine panic_pairs (I := fun u : DT => u.kind = kd)
      (fun k v s s' hI h => (assign_kind h).trans hI) ps t0 (fun p _ s hs => ?_)
      (fun p _ s hs => ?_) h0
    · subst hs
      rw [assign_eq]
      unfold DT.step
      exact acc_map.trans ((acc_facet _).trans entry_acc)
    · subst hs
      rw [assign_eq]
      unfold DT.step
      exact Res.map_eq_panic.trans (facet_panic _)
  have basic : ∀ kd p, isBasic kd = true → ¬ StepPanics X kd c p.1 p.2 (facetOf kd p) := by
    intro kd p hb h
    have : ∀ s f, facetNamed.lookup s = some f → f ≠ .type → facetOf kd p = f →
        s ∈ facetNames kd := fun s f h1 h2 h3 => (facetOf_text h3 h1 h2).2
    cases hf : facetOf kd p <;> rw [hf] at h <;> try exact h.elim
    case extra => exact absurd h.1 (by rw [hb]; decide)
    case «example» =>
      have := this "example" _ (by decide) (by decide) hf
      cases kd <;> first | (revert this; decide) | cases hb
    case examples =>
      have := this "examples" _ (by decide) (by decide) hf
      cases kd <;> first | (revert this; decide) | cases hb
    case properties =>
      have := this "properties" _ (by decide) (by decide) hf
      cases kd <;> first | (revert this; decide) | cases hb
    case items =>
      have := this "items" _ (by decide) (by decide) hf
      cases kd <;> first | (revert this; decide) | cases hb
    case facets =>
      have := this "facets" _ (by decide) (by decide) hf
      cases kd <;> first | (revert this; decide) | cases hb
  unfold hat
  refine Res.bind_eq_panic.trans ?_
  constructor
  · rintro (h | ⟨t0, h0, h⟩)
    · exact absurd h siftType_panic
    · obtain ⟨p, h1, h2⟩ := (loop t0 _ rfl).mp h
      cases hb : isBasic t0.kind with
      | true => exact absurd h2 (basic _ _ hb)
      | false => exact ⟨t0.kind, siftType_kindOf h0 hb, hb, p, h1, h2⟩
  · rintro ⟨kd, hk, hb, p, h1, h2⟩
    obtain ⟨t0, h0, hk0⟩ : ∃ t0, siftType ps = .ok t0 ∧ t0.kind = kd := by
      cases hf : ps.find? isTypeEntry with
      | none =>
        refine ⟨_, (siftType_spec ps).2 hf, ?_⟩
        rw [kind_new]
        simpa [kindOf, hf] using hk
      | some e =>
        simp only [kindOf, hf] at hk
        split at hk
        · rename_i he
          refine ⟨typeToKind e.2.value, ?_, ?_⟩
          · rw [(siftType_spec ps).1 e hf, if_pos he]
          · rw [(typeToKind_spec _).1]; exact Option.some.inj hk
        · cases hk
    exact .inr ⟨t0, h0, (loop t0 kd hk0).mpr ⟨p, h1, h2⟩⟩

/-- C87: exactly which type definitions make the parser panic, and how. -/
theorem C87_type (X : Xyml) (n : Node) (c : Crash) : hat X n = .panic c ↔ Crashes X c n := by
  constructor
  · induction hsz : sizeOf n using Nat.strongRecOn generalizing n c with
    | _ N ih =>
      intro h
      cases n with
      | scalar t v => unfold hat at h; split_ifs at h
      | seq t ns => unfold hat at h; cases h
      | map ps =>
        obtain ⟨kd, hk, hb, ⟨k, v⟩, hr, h⟩ := hat_map_panic.mp h
        have hlt : sizeOf v < N := hsz ▸ size_entry (reaches_mem hr)
        cases hf : facetOf kd (k, v) <;> rw [hf] at h <;> try exact h.elim
        case extra =>
          obtain ⟨_, hke, rfl⟩ := h
          have hke : k = _ := hke
          subst hke
          exact .key hk hb hr
        case «example» =>
          obtain ⟨h1, _⟩ := facetOf_text (s := "example") hf (by decide) (by decide)
          obtain ⟨hx, h⟩ := h
          obtain ⟨hc, qs, w, hv, h9⟩ := (C87_example X kd _ c).mp h
          have hv : v = _ := hv
          subst hv hc
          exact .inExample hk hx hr h1 h9
        case examples =>
          obtain ⟨h1, _⟩ := facetOf_text (s := "examples") hf (by decide) (by decide)
          obtain ⟨qs, k', w, hv, h2, h3, h⟩ := h
          obtain ⟨hc, rs, u, rfl, h9⟩ := (C87_example X kd _ c).mp h
          have hv : v = _ := hv
          subst hv hc
          exact .inExamples hk hb hr h1 h2 h3 h9
        case properties =>
          obtain ⟨h1, h2⟩ := facetOf_text (s := "properties") hf (by decide) (by decide)
          obtain rfl : kd = .object := by cases kd <;> first | rfl | (revert h2; decide)
          obtain ⟨qs, k', w, hv, h3, h4, h⟩ := h
          have hv : v = _ := hv
          subst hv
          rcases h with h | ⟨rfl, h5, h6⟩
          · exact .inProperty hk hr h1 h3 h4
              (ih _ (Nat.lt_trans (size_entry (reaches_mem h3)) hlt) w c rfl h)
          · exact .property hk hr h1 h3 h4 h5 h6
        case items =>
          obtain ⟨h1, h2⟩ := facetOf_text (s := "items") hf (by decide) (by decide)
          obtain rfl : kd = .array := by cases kd <;> first | rfl | (revert h2; decide)
          exact .inItems hk hr h1 (ih _ hlt v c rfl h)
        case facets =>
          obtain ⟨h1, _⟩ := facetOf_text (s := "facets") hf (by decide) (by decide)
          obtain ⟨qs, k', w, hv, h2, h3, rs, k'', u, rfl, h4, h5, h⟩ := h
          have hv : v = _ := hv
          subst hv
          refine .inFacet hk hb hr h1 h2 h3 h4 h5 (ih _ ?_ u c rfl h)
          exact Nat.lt_trans (size_entry (reaches_mem h4))
            (Nat.lt_trans (size_entry (reaches_mem h2)) hlt)
  · intro h
    induction h with
    | @key ps kd v hk hb hr =>
      refine hat_map_panic.mpr ⟨kd, hk, hb, _, hr, ?_⟩
      have hf : facetOf kd (Node.str "", v) = .extra := by cases kd <;> rfl
      rw [hf]
      exact ⟨hb, rfl, rfl⟩
    | @inExample ps qs kd k w hk hx hr hv h =>
      have hb : isBasic kd = false := by cases kd <;> first | rfl | cases hx
      refine hat_map_panic.mpr ⟨kd, hk, hb, _, hr, ?_⟩
      rw [facetOf_eq (f := .example) hv
        (by cases kd <;> first | rfl | (exact absurd hb (by decide))) (by decide)]
      exact ⟨hx, (C87_example _ _ _ _).mpr ⟨rfl, qs, w, rfl, h⟩⟩
    | @inExamples ps qs rs kd k k' w hk hb hr hv h1 h2 h =>
      refine hat_map_panic.mpr ⟨kd, hk, hb, _, hr, ?_⟩
      rw [facetOf_eq (f := .examples) hv
        (by cases kd <;> first | rfl | (exact absurd hb (by decide))) (by decide)]
      exact ⟨qs, k', _, rfl, h1, h2, (C87_example _ _ _ _).mpr ⟨rfl, rs, w, rfl, h⟩⟩
    | @property ps qs k k' w hk hr hv h1 h2 h3 h4 =>
      refine hat_map_panic.mpr ⟨.object, hk, rfl, _, hr, ?_⟩
      rw [facetOf_eq (f := .properties) hv (by decide) (by decide)]
      exact ⟨qs, k', w, rfl, h1, h2, .inr ⟨rfl, h3, h4⟩⟩
    | @inProperty ps qs k k' w c hk hr hv h1 h2 _ ih =>
      refine hat_map_panic.mpr ⟨.object, hk, rfl, _, hr, ?_⟩
      rw [facetOf_eq (f := .properties) hv (by decide) (by decide)]
      exact ⟨qs, k', w, rfl, h1, h2, .inl ih⟩
    | @inItems ps k w c hk hr hv _ ih =>
      refine hat_map_panic.mpr ⟨.array, hk, rfl, _, hr, ?_⟩
      rw [facetOf_eq (f := .items) hv (by decide) (by decide)]
      exact ih
    | @inFacet ps qs rs kd k k' k'' w c hk hb hr hv h1 h2 h3 h4 _ ih =>
      refine hat_map_panic.mpr ⟨kd, hk, hb, _, hr, ?_⟩
      rw [facetOf_eq (f := .facets) hv
        (by cases kd <;> first | rfl | (exact absurd hb (by decide))) (by decide)]
      exact ⟨qs, k', _, rfl, h1, h2, rs, k'', w, rfl, h3, h4, ih⟩

/-- C87: a type definition is reported as an error exactly when it is neither acceptable nor one
that makes the parser panic. -/
theorem C87_type_error (X : Xyml) (n : Node) :
    (∃ e, hat X n = .err e) ↔ ¬ TypeOk X n ∧ ∀ c, ¬ Crashes X c n := by
  simp only [← C54_type_accepted, ← C87_type]
  cases hat X n <;> simp

/-! ### Documents -/

private theorem extra_panic {X : Xyml} {k v : Node} {m : OM Scalar Node} {c : Crash} :
    (if k.isStr && k.value == "" then .panic .emptyKey
      else (asScalar X k).map fun s => OM.put m s v) = .panic c ↔
    k = Node.str "" ∧ c = .emptyKey := by
  constructor
  · intro h
    split at h
    · rename_i hc
      cases h
      simp only [Bool.and_eq_true, beq_iff_eq] at hc
      exact ⟨eq_emptyStr hc.1 hc.2, rfl⟩
    · exact absurd h (map_panic asScalar_panic)
  · rintro ⟨rfl, rfl⟩
    rfl

private theorem types_panic {X : Xyml} {v : Node} {m : OM String DT} {c : Crash} :
    loadTypes X v m = .panic c ↔ ∃ qs k w, v = .map qs ∧
      Reaches (fun q => q.1.isStr = true ∧ TypeOk X q.2) qs (k, w) ∧ k.isStr = true ∧
      Crashes X c w := by
  rw [loadTypes_panic_iff]
  simp only [C87_type]

def ApiStepPanics (X : Xyml) (c : Crash) (k v : Node) : ApiSection → Prop
  | .extra => k = Node.str "" ∧ c = .emptyKey
  | .types => ∃ qs k w, v = .map qs ∧
      Reaches (fun q => q.1.isStr = true ∧ TypeOk X q.2) qs (k, w) ∧ k.isStr = true ∧
      Crashes X c w
  | _ => False

def LibStepPanics (X : Xyml) (c : Crash) (k v : Node) : LibSection → Prop
  | .extra => k = Node.str "" ∧ c = .emptyKey
  | .types => ∃ qs k w, v = .map qs ∧
      Reaches (fun q => q.1.isStr = true ∧ TypeOk X q.2) qs (k, w) ∧ k.isStr = true ∧
      Crashes X c w
  | _ => False

theorem apiStep_panic {X : Xyml} {k v : Node} {s : ApiSection} {c : Crash} (x : s.Ty) :
    apiStep X k v s x = .panic c ↔ ApiStepPanics X c k v s := by
  have no : ∀ {α : Type} {r : Res α}, r ≠ .panic c → (r = .panic c ↔ False) :=
    fun h => ⟨h, False.elim⟩
  cases s
  case extra => exact extra_panic
  case types => exact types_panic
  case title => exact no asString_panic
  case version | baseUri | description => exact no (map_panic asString_panic)
  case protocols | securedBy => exact no (map_panic asStringList_panic)
  case mediaType =>
    refine no fun h => ?_
    simp only [apiStep] at h
    split at h
    · cases h
    · exact map_panic asStringList_panic h
  case documentation =>
    refine no fun h => ?_
    obtain ⟨d, l, h⟩ := seqForEach_panic h
    refine map_panic (fun h => ?_) h
    obtain ⟨qs, _, ⟨k', w⟩, hw, s1, h⟩ := mapForEach_panic h
    unfold Documentation.assign at h
    split_ifs at h
    exact map_panic asScalar_panic h
  case uses => exact no loadStrings_panic
  case annotations => exact no (map_panic loadAnn_panic)
  case resources => exact no (fun h => nomatch h)
  all_goals exact no loadUntyped_panic

theorem libStep_panic {X : Xyml} {k v : Node} {s : LibSection} {c : Crash} (x : s.Ty) :
    libStep X k v s x = .panic c ↔ LibStepPanics X c k v s := by
  have no : ∀ {α : Type} {r : Res α}, r ≠ .panic c → (r = .panic c ↔ False) :=
    fun h => ⟨h, False.elim⟩
  cases s
  case extra => exact extra_panic
  case types => exact types_panic
  case annotations =>
    refine no fun h => ?_
    by_cases hk : k.value = "annotationTypes"
    · exact absurd ((if_pos hk).symm.trans h) loadAnns_panic
    · exact absurd ((if_neg hk).symm.trans h) (map_panic loadAnn_panic)
  case usage => exact no (map_panic asString_panic)
  case uses => exact no loadStrings_panic
  all_goals exact no loadUntyped_panic

private theorem apiSection_types {k v : Node} : apiSectionOf (k, v) = .types ↔
    ∃ s, (s = "types" ∨ s = "schemas") ∧ k = Node.str s := by
  constructor
  · intro hsec
    unfold apiSectionOf at hsec
    split at hsec
    · cases hsec
    split at hsec
    · cases hsec
    split at hsec
    · rename_i hs
      cases hl : apiKeys.lookup k.value with
      | none => simp only [hl] at hsec; cases hsec
      | some x =>
        simp only [hl, Option.getD_some] at hsec
        subst hsec
        have hall : ∀ e ∈ apiKeys, e.2 = .types → e.1 = "types" ∨ e.1 = "schemas" := by decide
        refine ⟨k.value, hall _ (lookup_some_mem hl) rfl, ?_⟩
        cases k with
        | scalar t x =>
          have : t = "!!str" := by simpa [Node.isStr] using hs
          subst this
          rfl
        | _ => cases hs
    · cases hsec
  · have h1 : apiSectionOf (Node.str "types", .map []) = .types := by decide
    have h2 : apiSectionOf (Node.str "schemas", .map []) = .types := by decide
    rintro ⟨_, rfl | rfl, rfl⟩
    · exact h1
    · exact h2

private theorem libSection_types {k v : Node} : libSectionOf (k, v) = .types ↔
    k.value = "types" ∨ k.value = "schemas" := by
  unfold libSectionOf
  constructor
  · intro hsec
    cases hl : libKeys.lookup k.value with
    | none =>
      simp only [hl] at hsec
      split at hsec <;> cases hsec
    | some x =>
      simp only [hl] at hsec
      subst hsec
      have hall : ∀ e ∈ libKeys, e.2 = .types → e.1 = "types" ∨ e.1 = "schemas" := by decide
      exact hall _ (lookup_some_mem hl) rfl
  · rintro (h | h) <;> simp only [h] <;> rfl

/-- C87: exactly which API documents make the parser panic, and how. -/
theorem C87_api (X : Xyml) (n : Node) (c : Crash) :
    parseApi X n = .panic c ↔ ApiCrashes X c n := by
  cases n with
  | scalar a b => exact ⟨(fun h => nomatch h), fun h => nomatch h⟩
  | seq a b => exact ⟨(fun h => nomatch h), fun h => nomatch h⟩
  | map ps =>
    have := panic_pairs (f := fun k v a => APISpec.assign X k v a) (c := c) (I := fun _ => True)
      (Q := fun p => ApiPartOk X p.1 p.2 (apiSectionOf p))
      (P := fun p => ApiStepPanics X c p.1 p.2 (apiSectionOf p))
      (fun _ _ _ _ _ _ => trivial) ps APISpec.new
      (fun p _ s _ => by rw [api_assign_eq]; exact acc_map.trans (acc_apiStep _))
      (fun p _ s _ => by rw [api_assign_eq]; exact Res.map_eq_panic.trans (apiStep_panic _))
      trivial
    refine Iff.trans this ?_
    constructor
    · rintro ⟨⟨k, v⟩, hr, h⟩
      cases hf : apiSectionOf (k, v) <;> rw [hf] at h <;> try exact h.elim
      case extra =>
        obtain ⟨hk, hc⟩ := h
        have hk : k = _ := hk
        subst hk hc
        exact .key hr
      case types =>
        obtain ⟨s, hs, rfl⟩ := apiSection_types.mp hf
        obtain ⟨qs, k', w, hv, h1, h2, h3⟩ := h
        have hv : v = _ := hv
        subst hv
        exact .type hs hr h1 h2 h3
    · intro h
      cases h with
      | key hr => exact ⟨_, hr, rfl, rfl⟩
      | @type _ qs s k w _ hs hr h1 h2 h3 =>
        refine ⟨_, hr, ?_⟩
        rw [apiSection_types.mpr ⟨s, hs, rfl⟩]
        exact ⟨qs, k, w, rfl, h1, h2, h3⟩

/-- C87: exactly which libraries make the parser panic, and how. -/
theorem C87_library (X : Xyml) (o : Option Node) (c : Crash) :
    parseLibrary X o = .panic c ↔ ∃ n, o = some n ∧ LibCrashes X c n := by
  cases o with
  | none => exact ⟨(fun h => nomatch h), fun ⟨_, h, _⟩ => nomatch h⟩
  | some n =>
  refine Iff.trans ?_ (show LibCrashes X c n ↔ _ from
    ⟨fun h => ⟨n, rfl, h⟩, fun ⟨_, h, h'⟩ => Option.some.inj h ▸ h'⟩)
  cases n with
  | scalar a b => exact ⟨(fun h => nomatch h), fun h => nomatch h⟩
  | seq a b => exact ⟨(fun h => nomatch h), fun h => nomatch h⟩
  | map ps =>
    have := panic_pairs (f := fun k v a => Library.assign X k v a) (c := c) (I := fun _ => True)
      (Q := fun p => LibPartOk X p.1 p.2 (libSectionOf p))
      (P := fun p => LibStepPanics X c p.1 p.2 (libSectionOf p))
      (fun _ _ _ _ _ _ => trivial) ps Library.new
      (fun p _ s _ => by rw [lib_assign_eq]; exact acc_map.trans (acc_libStep _))
      (fun p _ s _ => by rw [lib_assign_eq]; exact Res.map_eq_panic.trans (libStep_panic _))
      trivial
    refine Iff.trans this ?_
    constructor
    · rintro ⟨⟨k, v⟩, hr, h⟩
      cases hf : libSectionOf (k, v) <;> rw [hf] at h <;> try exact h.elim
      case extra =>
        obtain ⟨hk, hc⟩ := h
        have hk : k = _ := hk
        subst hk hc
        exact .key hr
      case types =>
        obtain ⟨qs, k', w, hv, h1, h2, h3⟩ := h
        have hv : v = _ := hv
        subst hv
        exact .type (libSection_types.mp hf) hr h1 h2 h3
    · intro h
      cases h with
      | key hr => exact ⟨_, hr, rfl, rfl⟩
      | @type _ qs k k' w _ hs hr h1 h2 h3 =>
        refine ⟨_, hr, ?_⟩
        rw [libSection_types.mpr hs]
        exact ⟨qs, k', w, rfl, h1, h2, h3⟩

/-- C87: a document is reported as an error exactly when it is neither acceptable nor one that
makes the parser panic. -/
theorem C87_api_error (X : Xyml) (n : Node) : (∃ e, parseApi X n = .err e) ↔
    (∀ c, ¬ ApiCrashes X c n) ∧
      (isMap n = true → ∃ p ∈ mapEntries n, ¬ ApiPartOk X p.1 p.2 (apiSectionOf p)) := by
  have := C55_api_accepted X n
  simp only [← C87_api]
  have e : (isMap n = true → ∃ p ∈ mapEntries n, ¬ ApiPartOk X p.1 p.2 (apiSectionOf p)) ↔
      ¬ ∃ a, parseApi X n = .ok a := by
    rw [this]
    push Not
    rfl
  rw [e]
  cases parseApi X n <;> simp

/-- C87: the same for libraries. -/
theorem C87_library_error (X : Xyml) (n : Node) : (∃ e, parseLibrary X (some n) = .err e) ↔
    (∀ c, ¬ LibCrashes X c n) ∧
      (isMap n = true → ∃ p ∈ mapEntries n, ¬ LibPartOk X p.1 p.2 (libSectionOf p)) := by
  have := C56_library_accepted X (some n)
  have hc : ∀ c, LibCrashes X c n ↔ parseLibrary X (some n) = .panic c := fun c =>
    ⟨fun h => (C87_library X _ c).mpr ⟨n, rfl, h⟩, fun h => by
      obtain ⟨_, h1, h2⟩ := (C87_library X _ c).mp h
      exact Option.some.inj h1 ▸ h2⟩
  simp only [hc]
  have e : (isMap n = true → ∃ p ∈ mapEntries n, ¬ LibPartOk X p.1 p.2 (libSectionOf p)) ↔
      ¬ ∃ a, parseLibrary X (some n) = .ok a := by
    rw [this]
    simp only [Option.some.injEq, forall_eq']
    push Not
    rfl
  rw [e]
  cases parseLibrary X (some n) <;> simp

/-! ### Concrete cases -/

/-- An empty key after an acceptable entry panics. -/
example (X : Xyml) (v : Node) : Crashes X .emptyKey
    (.map [(.str "type", .str "string"), (.str "", v)]) :=
  have hk : some (classify "string") = some .string := congrArg some (by decide)
  .key (kd := .string) hk (by decide)
    ⟨[(.str "type", .str "string")], [], rfl, by
      simp only [List.mem_singleton, forall_eq]
      exact ⟨show FacetOk X .string (.str "type") (.str "string") .type from rfl, trivial⟩⟩

/-- With a display name that is no text before the empty key the same definition is an error, with
the display name after it a panic: the problem that comes first counts. -/
example : (hat Xyml.std (.map [(.str "type", .str "string"), (.str "displayName", .map []),
      (.str "", .str "v")])).isOk = false ∧
    (∀ c, ¬ Crashes Xyml.std c (.map [(.str "type", .str "string"),
      (.str "displayName", .map []), (.str "", .str "v")])) ∧
    Crashes Xyml.std .emptyKey (.map [(.str "type", .str "string"), (.str "", .str "v"),
      (.str "displayName", .map [])]) := by
  simp only [← C87_type]
  refine ⟨by decide +kernel, fun c => ?_, rfl⟩
  intro h
  have : (match hat Xyml.std (.map [(.str "type", .str "string"), (.str "displayName", .map []),
      (.str "", .str "v")]) with | .panic _ => false | _ => true) = true := by decide +kernel
  rw [h] at this
  cases this

/-- A property defined as nil panics; behind a property that is no definition it is an error. -/
example : Crashes Xyml.std .notProperty (.map [(.str "properties",
      .map [(.str "a", .str "string"), (.str "b", .str "nil")])]) ∧
    (∀ c, ¬ Crashes Xyml.std c (.map [(.str "properties",
      .map [(.str "a", .seq "!!seq" []), (.str "b", .str "nil")])])) := by
  simp only [← C87_type]
  refine ⟨by rfl, fun c h => ?_⟩
  have : (match hat Xyml.std (.map [(.str "properties",
      .map [(.str "a", .seq "!!seq" []), (.str "b", .str "nil")])]) with
      | .panic _ => false | _ => true) = true := by decide +kernel
  rw [h] at this
  cases this

/-- The item type of a property of a type of an API document: a panic three levels down. -/
example : ApiCrashes Xyml.std .emptyKey (.map [(.str "title", .str "t"), (.str "types",
    .map [(.str "A", .str "string"), (.str "B", .map [(.str "properties", .map [(.str "p",
      .map [(.str "type", .str "array"), (.str "items", .map [(.str "", .str "v")])])])])])]) := by
  simp only [← C87_api]
  rfl

/-- An empty key in one of several examples, and in a facet declaration. -/
example : Crashes Xyml.std .emptyKey (.map [(.str "type", .str "string"), (.str "examples",
      .map [(.str "e", .str "x"), (.str "f", .map [(.str "value", .str "y"),
        (.str "", .str "z")])])]) ∧
    Crashes Xyml.std .notProperty (.map [(.str "type", .str "string"), (.str "facets",
      .map [(.str "g", .map [(.str "h", .map [(.str "properties",
        .map [(.str "p", .str "nil")])])])])]) := by
  simp only [← C87_type]
  exact ⟨by rfl, by rfl⟩

/-- A library whose only entry has an empty key panics; with a usage that is a sequence before it
the library is an error. -/
example (X : Xyml) (v : Node) : LibCrashes X .emptyKey (.map [(.str "", v)]) ∧
    ∃ e, parseLibrary X (some (.map [(.str "usage", .seq "!!seq" []), (.str "", v)])) = .err e :=
  ⟨.key ⟨[], [], rfl, by simp⟩, _, rfl⟩

end Verif.Props
