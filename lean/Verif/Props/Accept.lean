import Verif.Props.FacetValues
import Verif.Props.NoPanic

/-! # C54–C56: exactly which definitions and documents are accepted -/

namespace Verif.Props
open Verif Verif.Doc Verif.Doc.Spec

/-! ### Vocabulary -/

/-- A mapping whose keys are strings. -/
def StrMap (v : Node) : Prop := isMap v = true ∧ ∀ p ∈ mapEntries v, p.1.isStr = true

/-- A sequence of strings. -/
def StrSeq (v : Node) : Prop := isSeq v = true ∧ ∀ n ∈ seqItems v, n.isStr = true

/-- An acceptable entry of an expanded example of kind `kd`. -/
structure ExampleEntryOk (X : Xyml) (kd : Kind) (p : Node × Node) : Prop where
  key : p.1 ≠ Node.str ""
  extra : isExampleExtra p = true → X.toScalar p.1 ≠ none
  annotation : startsWith '(' p.1 = true → StrMap p.2
  text : p.1.isStr = true → p.1.value = "displayName" ∨ p.1.value = "description" →
    p.2.isStr = true
  strict : p.1.isStr = true → p.1.value = "strict" → X.toBool p.2 ≠ none
  value : p.1.isStr = true → p.1.value = "value" → exampleElem X kd p.2 ≠ none

/-- An acceptable example of kind `kd`. -/
def ExampleOk (X : Xyml) (kd : Kind) (v : Node) : Prop :=
  if isMap v then ∀ p ∈ mapEntries v, ExampleEntryOk X kd p else exampleElem X kd v ≠ none

/-- An acceptable entry of XML settings. -/
def XmlEntryOk (X : Xyml) (p : Node × Node) : Prop :=
  if p.1.value = "attribute" ∨ p.1.value = "wrapped" then X.toBool p.2 ≠ none
  else if p.1.value = "name" ∨ p.1.value = "namespace" ∨ p.1.value = "prefix" then
    p.2.isStr = true
  else X.toScalar p.1 ≠ none

/-- Acceptable XML settings. -/
def XmlOk (X : Xyml) (v : Node) : Prop :=
  isMap v = true ∧ ∀ p ∈ mapEntries v, XmlEntryOk X p

/-- An acceptable entry `k: v` of facet `f` of a type of kind `kd`, apart from the type
definitions nested in it. -/
def FacetOk (X : Xyml) (kd : Kind) (k v : Node) : Facet → Prop
  | .type | .displayName | .description | .pattern | .discriminator | .format => v.isStr = true
  | .required | .uniqueItems | .additionalProperties => X.toBool v ≠ none
  | .enum => isSeq v = true ∧ ∀ n ∈ seqItems v, enumElem X kd n ≠ none
  | .example => hasExamples kd = true ∧ ExampleOk X kd v
  | .examples => StrMap v ∧ ∀ p ∈ mapEntries v, ExampleOk X kd p.2
  | .xml => XmlOk X v
  | .facets => StrMap v ∧ ∀ p ∈ mapEntries v, StrMap p.2
  | .annotations => StrMap v
  | .extra => isBasic kd = true ∨ k ≠ Node.str ""
  | .properties => StrMap v ∧ ∀ p ∈ mapEntries v, ¬ DefBasic p.2
  | .items | .discriminatorValue => True
  | .minLength | .maxLength | .minItems | .maxItems | .minProperties | .maxProperties =>
    X.toInt v ≠ none
  | .fileTypes => StrSeq v
  | .minimum | .maximum => if kd = .integer then X.toInt v ≠ none else X.toFlt v ≠ none
  | .multipleOf => X.toFlt v ≠ none

/-- An acceptable type definition, apart from the definitions nested in it. -/
def DefOk (X : Xyml) : Node → Prop
  | .scalar tag _ => tag = "!!str" ∨ tag = "!include"
  | .seq _ _ => False
  | .map ps => ∃ kd, kindOf ps = some kd ∧ ∀ p ∈ ps, FacetOk X kd p.1 p.2 (facetOf kd p)

/-- An acceptable type definition. -/
def TypeOk (X : Xyml) (n : Node) : Prop := DefOk X n ∧ ∀ sub, TypePos n sub → DefOk X sub

/-! ### Loops -/

/-- The result is a value. -/
def Acc {α : Type} (r : Res α) : Prop := ∃ x, r = .ok x

theorem acc_map {α β : Type} {r : Res α} {f : α → β} : Acc (r.map f) ↔ Acc r := by
  cases r <;> simp [Acc]

theorem acc_ok {α : Type} {x : α} : Acc (.ok x : Res α) ↔ True := by simp [Acc]

theorem acc_asString {v : Node} : Acc (asString v) ↔ v.isStr = true := by
  unfold asString Acc; split <;> simp_all

theorem acc_asBool {X : Xyml} {v : Node} : Acc (asBool X v) ↔ X.toBool v ≠ none := by
  unfold asBool Acc; split <;> simp_all

theorem acc_asInt {X : Xyml} {v : Node} : Acc (asInt X v) ↔ X.toInt v ≠ none := by
  unfold asInt Acc; split <;> simp_all

theorem acc_asFlt {X : Xyml} {v : Node} : Acc (asFlt X v) ↔ X.toFlt v ≠ none := by
  unfold asFlt Acc; split <;> simp_all

theorem acc_asUint {X : Xyml} {v : Node} : Acc (asUint X v) ↔ X.toInt v ≠ none :=
  acc_map.trans acc_asInt

theorem acc_asScalar {X : Xyml} {v : Node} : Acc (asScalar X v) ↔ X.toScalar v ≠ none := by
  unfold asScalar Acc; split <;> simp_all

theorem acc_bind_asString {α : Type} {v : Node} {f : String → Res α} :
    Acc ((asString v).bind f) ↔ v.isStr = true ∧ Acc (f v.value) := by
  unfold asString
  split
  · rename_i h; simp [h]
  · rename_i h; simp [h, Acc]

theorem acc_pairs {σ : Type} {f : Node → Node → σ → Res σ} {I : σ → Prop}
    {Q : Node × Node → Prop} (hI : ∀ k v s s', I s → f k v s = .ok s' → I s') :
    ∀ ps s, (∀ p ∈ ps, ∀ s, I s → (Acc (f p.1 p.2 s) ↔ Q p)) → I s →
      (Acc (forPairs f ps s) ↔ ∀ p ∈ ps, Q p) := by
  intro ps
  induction ps with
  | nil => intro s _ _; simp [forPairs, Acc]
  | cons p ps ih =>
    intro s hQ hs
    have h1 := hQ p (by simp) s hs
    have ih := fun s hs => ih s (fun p hp => hQ p (by simp [hp])) hs
    simp only [forPairs, List.forall_mem_cons]
    constructor
    · rintro ⟨s', h⟩
      obtain ⟨s1, h2, h3⟩ := Res.bind_eq_ok.mp h
      exact ⟨h1.mp ⟨s1, h2⟩, (ih s1 (hI _ _ _ _ hs h2)).mp ⟨s', h3⟩⟩
    · rintro ⟨hp, hps⟩
      obtain ⟨s1, h2⟩ := h1.mpr hp
      obtain ⟨s', h3⟩ := (ih s1 (hI _ _ _ _ hs h2)).mpr hps
      exact ⟨s', by rw [h2]; exact h3⟩

theorem acc_mapForEach {σ : Type} {f : Node → Node → σ → Res σ} {Q : Node × Node → Prop}
    {v : Node} {s : σ} (hQ : ∀ p ∈ mapEntries v, ∀ s, (Acc (f p.1 p.2 s) ↔ Q p)) :
    Acc (mapForEach f v s) ↔ isMap v = true ∧ ∀ p ∈ mapEntries v, Q p := by
  cases v with
  | scalar a b => simp [mapForEach, Acc, isMap]
  | seq a b => simp [mapForEach, Acc, isMap]
  | map ps =>
    have := acc_pairs (f := f) (I := fun _ => True) (fun _ _ _ _ _ _ => trivial) ps s
      (fun p hp s _ => hQ p hp s) trivial
    exact this.trans ⟨fun h => ⟨rfl, h⟩, fun h => h.2⟩

theorem acc_seqForEach {σ : Type} {f : Node → σ → Res σ} {Q : Node → Prop}
    {v : Node} {s : σ} (hQ : ∀ n s, (Acc (f n s) ↔ Q n)) :
    Acc (seqForEach f v s) ↔ isSeq v = true ∧ ∀ n ∈ seqItems v, Q n := by
  cases v with
  | scalar a b => simp [seqForEach, Acc, isSeq]
  | map a => simp [seqForEach, Acc, isSeq]
  | seq a ns =>
    have : ∀ ns s, Acc (forItems f ns s) ↔ ∀ n ∈ ns, Q n := by
      intro ns
      induction ns with
      | nil => intro s; simp [forItems, Acc]
      | cons n ns ih =>
        intro s
        simp only [forItems, List.forall_mem_cons]
        constructor
        · rintro ⟨s', h⟩
          obtain ⟨s1, h2, h3⟩ := Res.bind_eq_ok.mp h
          exact ⟨(hQ n s).mp ⟨s1, h2⟩, (ih s1).mp ⟨s', h3⟩⟩
        · rintro ⟨hp, hps⟩
          obtain ⟨s1, h2⟩ := (hQ n s).mpr hp
          obtain ⟨s', h3⟩ := (ih s1).mpr hps
          exact ⟨s', by rw [h2]; exact h3⟩
    exact (this ns s).trans ⟨fun h => ⟨rfl, h⟩, fun h => h.2⟩

theorem acc_stringList {v : Node} : Acc (asStringList v) ↔ StrSeq v :=
  acc_seqForEach fun _ _ => acc_map.trans acc_asString

theorem acc_untyped {m : OM String Node} {v : Node} : Acc (loadUntyped m v) ↔ StrMap v :=
  acc_mapForEach fun _ _ _ => acc_map.trans acc_asString

theorem acc_ann {v : Node} : Acc (loadAnn v) ↔ StrMap v := acc_untyped

theorem acc_strings {m : OM String String} {v : Node} : Acc (loadStrings m v) ↔
    isMap v = true ∧ ∀ p ∈ mapEntries v, p.1.isStr = true ∧ p.2.isStr = true :=
  acc_mapForEach fun _ _ _ => acc_bind_asString.trans (and_congr_right fun _ =>
    acc_map.trans acc_asString)

/-- A loader of a dictionary accepts iff the node is a mapping with string keys and acceptable
values. -/
theorem acc_loader {V : Type} {g : Node → Res V} {m : OM String V} {v : Node}
    {Q : Node → Prop} (hg : ∀ p ∈ mapEntries v, (Acc (g p.2) ↔ Q p.2)) :
    Acc (mapForEach (fun k v m => (asString k).bind fun s => (g v).map fun x => m.put s x) v m) ↔
      StrMap v ∧ ∀ p ∈ mapEntries v, Q p.2 := by
  rw [acc_mapForEach (Q := fun p => p.1.isStr = true ∧ Q p.2) fun p hp _ =>
    acc_bind_asString.trans (and_congr_right fun _ => acc_map.trans (hg p hp))]
  unfold StrMap
  constructor
  · exact fun h => ⟨⟨h.1, fun p hp => (h.2 p hp).1⟩, fun p hp => (h.2 p hp).2⟩
  · exact fun h => ⟨h.1.1, fun p hp => ⟨h.1.2 p hp, h.2 p hp⟩⟩

/-! ### Examples and XML settings -/

theorem acc_exampleVal {X : Xyml} {kd : Kind} {v : Node} :
    Acc (exampleVal X kd v) ↔ exampleElem X kd v ≠ none := by
  constructor
  · rintro ⟨x, h⟩
    rw [(exampleVal_eq X kd v x).mp h]; simp
  · intro h
    obtain ⟨x, hx⟩ := Option.ne_none_iff_exists'.mp h
    exact ⟨x, (exampleVal_eq X kd v x).mpr hx⟩

private theorem exampleEntry_iff {X : Xyml} {kd : Kind} {k v : Node} :
    ExampleEntryOk X kd (k, v) ↔ k ≠ Node.str "" ∧
      (isExampleExtra (k, v) = true → X.toScalar k ≠ none) ∧
      (startsWith '(' k = true → StrMap v) ∧
      (k.isStr = true → k.value = "displayName" ∨ k.value = "description" → v.isStr = true) ∧
      (k.isStr = true → k.value = "strict" → X.toBool v ≠ none) ∧
      (k.isStr = true → k.value = "value" → exampleElem X kd v ≠ none) :=
  ⟨fun h => ⟨h.key, h.extra, h.annotation, h.text, h.strict, h.value⟩,
    fun h => ⟨h.1, h.2.1, h.2.2.1, h.2.2.2.1, h.2.2.2.2.1, h.2.2.2.2.2⟩⟩

private theorem ne_emptyStr {k : Node} (h : k.isStr = true) : k ≠ Node.str "" ↔ k.value ≠ "" :=
  ⟨fun h1 h2 => h1 (eq_emptyStr h h2), fun h1 h2 => h1 (h2 ▸ rfl)⟩

theorem acc_exampleEntry {X : Xyml} {kd : Kind} {k v : Node} {s : Example}
    (hs : s.kind = kd) : Acc (Example.assign X k v s) ↔ ExampleEntryOk X kd (k, v) := by
  rw [exampleEntry_iff]
  unfold Example.assign Example.putExtra
  by_cases hstr : k.isStr = true
  · rw [ne_emptyStr hstr, if_neg (by simp [hstr])]
    cases hf : firstChar k.value with
    | none =>
      have := firstChar_none.mp hf
      simp [Acc, this]
    | some c =>
      have hne : k.value ≠ "" := fun h => by rw [firstChar_none.mpr h] at hf; cases hf
      have hst : startsWith '(' k = (c == '(') := startsWith_firstChar hstr hf
      simp only [hst, isExampleExtra, hstr, hne, ne_eq, not_false_eq_true, true_and,
        Bool.not_true, Bool.false_or, forall_const]
      by_cases hc : c = '('
      · have hk : ∀ n ∈ exampleKeys, k.value ≠ n := by
          intro n hn he
          rw [he] at hf
          subst hc
          clear he
          revert n
          decide
        have h1 := hk "displayName" (by decide)
        have h2 := hk "description" (by decide)
        have h3 := hk "strict" (by decide)
        have h4 := hk "value" (by decide)
        simp [hc, acc_map, acc_ann, h1, h2, h3, h4]
      · simp only [hc, if_false, beq_eq_false_iff_ne.mpr hc, Bool.not_false, Bool.true_and,
          Bool.false_eq_true, false_implies, true_and]
        by_cases h1 : k.value = "displayName"
        · simp [h1, acc_map, acc_asString, exampleKeys]
        by_cases h2 : k.value = "description"
        · simp [h2, acc_map, acc_asString, exampleKeys]
        by_cases h3 : k.value = "strict"
        · simp [h3, acc_map, acc_asBool, exampleKeys]
        by_cases h4 : k.value = "value"
        · simp [h4, acc_map, acc_exampleVal, exampleKeys, hs]
        simp [h1, h2, h3, h4, acc_map, acc_asScalar, exampleKeys]
  · have hne : k ≠ Node.str "" := fun h => hstr (by rw [h]; rfl)
    have hst : startsWith '(' k = false := by simp [startsWith, hstr]
    simp [hstr, hne, hst, isExampleExtra, acc_map, acc_asScalar]

/-- C54: exactly which examples are accepted. -/
theorem C54_example_accepted (X : Xyml) (kd : Kind) (v : Node) :
    (∃ e, (Example.new kd).unmarshal X v = .ok e) ↔ ExampleOk X kd v := by
  unfold ExampleOk
  cases v with
  | map ps =>
    rw [if_pos (show isMap (.map ps) = true from rfl)]
    exact acc_pairs (f := Example.assign X) (I := fun u : Example => u.kind = kd)
      (fun k v s s' hI h => by
        rcases example_assign h with ⟨_, _, _, rfl⟩ | ⟨_, _, _, rfl⟩ | ⟨_, _, _, rfl⟩ |
          ⟨_, _, _, rfl⟩ | ⟨_, _, _, _, rfl⟩ | ⟨_, _, _, _, rfl⟩ <;> exact hI)
      ps (Example.new kd) (fun p _ s hs => acc_exampleEntry hs) rfl
  | scalar a b =>
    rw [if_neg (by simp [isMap])]
    exact acc_map.trans acc_exampleVal
  | seq a b =>
    rw [if_neg (by simp [isMap])]
    exact acc_map.trans acc_exampleVal

/-- C54: exactly which XML settings are accepted. -/
theorem C54_xml_accepted (X : Xyml) (v : Node) :
    (∃ x, loadXML X v = .ok x) ↔ XmlOk X v := by
  refine acc_mapForEach (f := XML.assign X) (Q := XmlEntryOk X) fun p _ s => ?_
  unfold XML.assign XmlEntryOk
  by_cases h1 : p.1.value = "attribute"
  · simp [h1, acc_map, acc_asBool]
  by_cases h2 : p.1.value = "wrapped"
  · simp [h2, acc_map, acc_asBool]
  by_cases h3 : p.1.value = "name"
  · simp [h3, acc_map, acc_asString]
  by_cases h4 : p.1.value = "namespace"
  · simp [h4, acc_map, acc_asString]
  by_cases h5 : p.1.value = "prefix"
  · simp [h5, acc_map, acc_asString]
  simp [h1, h2, h3, h4, h5, acc_map, acc_asScalar]

/-! ### Type definitions -/

theorem acc_loadExample {X : Xyml} {kd : Kind} {v : Node} :
    Acc (loadExample X kd v) ↔ hasExamples kd = true ∧ ExampleOk X kd v := by
  rw [← C54_example_accepted]
  constructor
  · rintro ⟨e, he⟩
    exact ⟨(loadExample_ok he).1, e, (loadExample_ok he).2⟩
  · rintro ⟨hk, e, he⟩
    refine ⟨e, ?_⟩
    unfold loadExample
    have : exampleSortingHat kd = .ok (Example.new kd) := by
      cases kd <;> first | rfl | cases hk
    rw [this]
    exact he

theorem acc_loadTypes {X : Xyml} {v : Node} {m : OM String DT} : Acc (loadTypes X v m) ↔
    StrMap v ∧ ∀ p ∈ mapEntries v, ∃ t, hat X p.2 = .ok t := by
  rw [loadTypes_eq, loadType_form]
  exact acc_loader (g := hat X) (Q := fun v => ∃ t, hat X v = .ok t) fun _ _ => Iff.rfl

theorem acc_loadFacets {X : Xyml} {v : Node} {m : OM String (OM String DT)} :
    Acc (loadFacets X v m) ↔ StrMap v ∧ ∀ p ∈ mapEntries v, StrMap p.2 ∧
      ∀ q ∈ mapEntries p.2, ∃ t, hat X q.2 = .ok t := by
  rw [loadFacets_eq]
  have : (fun k v m => loadFacet X (k, v) m) = fun k v (m : OM String (OM String DT)) =>
      (asString k).bind fun s => (loadTypes X v (OM.empty true)).map fun x => m.put s x := by
    funext k v m
    unfold loadFacet
    rfl
  rw [this]
  exact acc_loader (g := fun v => loadTypes X v (OM.empty true)) (Q := fun v => StrMap v ∧
      ∀ q ∈ mapEntries v, ∃ t, hat X q.2 = .ok t) fun _ _ => acc_loadTypes

theorem acc_loadProps {X : Xyml} {v : Node} {m : OM String DT} : Acc (loadProps X v m) ↔
    StrMap v ∧ ∀ p ∈ mapEntries v, ¬ DefBasic p.2 ∧ ∃ t, hat X p.2 = .ok t := by
  rw [loadProps_eq]
  have : (fun k v m => loadProp X (k, v) m) = fun k v (m : OM String DT) =>
      (asString k).bind fun s => ((hat X v).bind fun t =>
        if t.isProperty then .ok t else .panic .notProperty).map fun x => m.put s x := by
    funext k v m
    unfold loadProp
    congr 1
    funext s
    cases hat X v with
    | ok t =>
      simp only [Res.bind_ok]
      split <;> rfl
    | err e => rfl
    | panic c => rfl
  rw [this]
  refine acc_loader (Q := fun v => ¬ DefBasic v ∧ ∃ t, hat X v = .ok t) fun p _ => ?_
  constructor
  · rintro ⟨u, hu⟩
    obtain ⟨t, ht, h2⟩ := Res.bind_eq_ok.mp hu
    split at h2
    · rename_i hp
      refine ⟨fun hd => ?_, t, ht⟩
      rw [hat_of_defBasic hd ht] at hp
      cases hp
    · cases h2
  · rintro ⟨hd, t, ht⟩
    refine ⟨t, ?_⟩
    rw [ht]
    cases hp : t.isProperty with
    | true => simp [hp]
    | false => exact absurd (defBasic_of_hat ht hp) hd

/-- The definitions nested directly in an entry of facet `f` are accepted. -/
def SubsOk (X : Xyml) (v : Node) : Facet → Prop
  | .items => ∃ t, hat X v = .ok t
  | .properties => ∀ p ∈ mapEntries v, ∃ t, hat X p.2 = .ok t
  | .facets => ∀ p ∈ mapEntries v, ∀ q ∈ mapEntries p.2, ∃ t, hat X q.2 = .ok t
  | _ => True

theorem acc_facet {X : Xyml} {kd : Kind} {k v : Node} {f : Facet} (x : f.Ty) :
    Acc (facetStep X kd k v f x) ↔ FacetOk X kd k v f ∧ SubsOk X v f := by
  cases f
  case enum =>
    refine Iff.trans (acc_seqForEach (Q := fun n => enumElem X kd n ≠ none) fun n s => ?_)
      (and_iff_left trivial).symm
    refine acc_map.trans ?_
    constructor
    · rintro ⟨y, h⟩
      rw [(enumVal_eq X kd n y).mp h]; simp
    · intro h
      obtain ⟨y, hy⟩ := Option.ne_none_iff_exists'.mp h
      exact ⟨y, (enumVal_eq X kd n y).mpr hy⟩
  case «example» => exact (acc_map.trans acc_loadExample).trans (and_iff_left trivial).symm
  case examples =>
    exact (acc_loader (g := fun v => (Example.new kd).unmarshal X v)
      (Q := ExampleOk X kd) fun p _ => C54_example_accepted X kd p.2).trans
      (and_iff_left trivial).symm
  case xml => exact (acc_map.trans (C54_xml_accepted X v)).trans (and_iff_left trivial).symm
  case facets =>
    refine acc_loadFacets.trans ?_
    simp only [FacetOk, SubsOk]
    exact ⟨fun h => ⟨⟨h.1, fun p hp => (h.2 p hp).1⟩, fun p hp => (h.2 p hp).2⟩,
      fun h => ⟨h.1.1, fun p hp => ⟨h.1.2 p hp, h.2 p hp⟩⟩⟩
  case annotations => exact (acc_map.trans acc_ann).trans (and_iff_left trivial).symm
  case extra =>
    refine Iff.trans ?_ (and_iff_left trivial).symm
    simp only [facetStep, FacetOk]
    by_cases hs : k.isStr = true
    · rw [ne_emptyStr hs]
      cases isBasic kd <;> by_cases hv : k.value = "" <;> simp [hs, hv, Acc] <;>
        exact ⟨_, rfl⟩
    · have : k ≠ Node.str "" := fun h => hs (by rw [h]; rfl)
      simp only [hs, this, Acc, Bool.and_false, Bool.false_and, ne_eq,
        not_false_eq_true, or_true, iff_true]
      exact ⟨_, rfl⟩
  case properties =>
    refine acc_loadProps.trans ?_
    simp only [FacetOk, SubsOk]
    exact ⟨fun h => ⟨⟨h.1, fun p hp => (h.2 p hp).1⟩, fun p hp => (h.2 p hp).2⟩,
      fun h => ⟨h.1.1, fun p hp => ⟨h.1.2 p hp, h.2 p hp⟩⟩⟩
  case items => exact acc_map.trans (and_iff_right trivial).symm
  case fileTypes => exact (acc_map.trans acc_stringList).trans (and_iff_left trivial).symm
  case discriminatorValue => exact acc_ok.trans (and_iff_left trivial).symm
  case type => exact acc_asString.trans (and_iff_left trivial).symm
  case required => exact acc_asBool.trans (and_iff_left trivial).symm
  case minimum | maximum =>
    refine Iff.trans ?_ (and_iff_left trivial).symm
    cases kd <;> first
      | exact acc_map.trans acc_asInt
      | exact acc_map.trans acc_asFlt
  case format =>
    refine Iff.trans ?_ (and_iff_left trivial).symm
    cases kd <;> first
      | exact acc_map.trans acc_asString
      | (refine acc_map.trans ?_
         unfold loadDateFormat FacetOk
         split <;> simp_all [Acc])
  all_goals
    refine Iff.trans ?_ (and_iff_left trivial).symm
    first
      | exact acc_map.trans acc_asString
      | exact acc_map.trans acc_asBool
      | exact acc_map.trans acc_asUint
      | exact acc_map.trans acc_asFlt

theorem hat_map_acc {X : Xyml} {ps : List (Node × Node)} :
    (∃ t, hat X (.map ps) = .ok t) ↔ ∃ kd, kindOf ps = some kd ∧
      ∀ p ∈ ps, FacetOk X kd p.1 p.2 (facetOf kd p) ∧ SubsOk X p.2 (facetOf kd p) := by
  have loop : ∀ (t0 : DT) (kd : Kind), t0.kind = kd → ((∃ t, assignAll X ps t0 = .ok t) ↔
      ∀ p ∈ ps, FacetOk X kd p.1 p.2 (facetOf kd p) ∧ SubsOk X p.2 (facetOf kd p)) := by
    intro t0 kd h0
    rw [assignAll_eq]
    refine acc_pairs (I := fun u : DT => u.kind = kd)
      (fun k v s s' hI h => (assign_kind h).trans hI) ps t0 (fun p _ s hs => ?_) h0
    subst hs
    rw [assign_eq]
    unfold DT.step
    exact acc_map.trans (acc_facet _)
  constructor
  · rintro ⟨t, h⟩
    obtain ⟨t0, h0, hk, _, h1, _⟩ := hat_map_ok h
    exact ⟨t0.kind, hk, (loop t0 _ rfl).mp ⟨t, h1⟩⟩
  · rintro ⟨kd, hk, hall⟩
    have hsift : ∃ t0, siftType ps = .ok t0 ∧ t0.kind = kd := by
      cases hf : ps.find? isTypeEntry with
      | none =>
        refine ⟨_, (siftType_spec ps).2 hf, ?_⟩
        rw [kind_new]
        simpa [kindOf, hf] using hk
      | some e =>
        simp only [kindOf, hf] at hk
        split at hk
        · rename_i he
          refine ⟨typeToKind e.2.value, ?_, ?_⟩
          · rw [(siftType_spec ps).1 e hf, if_pos he]
          · rw [(typeToKind_spec _).1]; exact Option.some.inj hk
        · cases hk
    obtain ⟨t0, h0, hk0⟩ := hsift
    obtain ⟨t, ht⟩ := (loop t0 kd hk0).mpr hall
    refine ⟨t, ?_⟩
    unfold hat
    rw [h0]
    exact ht

private theorem defOk_of_hat {X : Xyml} {n : Node} {t : DT} (h : hat X n = .ok t) :
    DefOk X n := by
  cases n with
  | scalar tag s =>
    unfold hat at h
    split at h
    · exact .inl (by assumption)
    · split at h
      · exact .inr (by assumption)
      · cases h
  | seq tag ns => unfold hat at h; cases h
  | map ps =>
    obtain ⟨kd, hk, hall⟩ := hat_map_acc.mp ⟨t, h⟩
    exact ⟨kd, hk, fun p hp => (hall p hp).1⟩

/-- C54: exactly which type definitions are accepted: the ones in which the definition itself and
every definition nested in it, at any depth, has a known kind and acceptable entries. -/
theorem C54_type_accepted (X : Xyml) (n : Node) : (∃ t, hat X n = .ok t) ↔ TypeOk X n := by
  constructor
  · rintro ⟨t, h⟩
    refine ⟨defOk_of_hat h, fun sub hp => ?_⟩
    obtain ⟨u, hu⟩ := C16_nested X n sub hp t h
    exact defOk_of_hat hu
  · suffices H : ∀ (k : Nat) (n : Node), sizeOf n < k → TypeOk X n → ∃ t, hat X n = .ok t from
      H (sizeOf n + 1) n (by omega)
    intro k
    induction k with
    | zero => intro n h; omega
    | succ k ih =>
      intro n hsz hok
      have sub : ∀ m, TypePos n m → sizeOf m < sizeOf n → ∃ t, hat X m = .ok t := fun m hp hs =>
        ih m (by omega) ⟨hok.2 m hp, fun l hl => hok.2 l (hp.trans hl)⟩
      cases n with
      | scalar tag s =>
        rcases hok.1 with h | h
        · exact ⟨_, by unfold hat; rw [if_pos h]⟩
        · subst h
          exact ⟨_, by unfold hat; rw [if_neg (by decide), if_pos rfl]⟩
      | seq tag ns => exact hok.1.elim
      | map ps =>
        obtain ⟨kd, hk, hall⟩ := hok.1
        refine hat_map_acc.mpr ⟨kd, hk, fun p hp => ⟨hall p hp, ?_⟩⟩
        obtain ⟨key, v⟩ := p
        have h1 : sizeOf v < sizeOf (Node.map ps) := size_entry hp
        have hf := hall _ hp
        generalize hfac : facetOf kd (key, v) = f at hf ⊢
        cases f
        case items =>
          obtain ⟨hv, h2⟩ := facetOf_text (s := "items") hfac (by decide) (by decide)
          obtain rfl : kd = .array := by cases kd <;> first | rfl | (revert h2; decide)
          exact sub v (.items hk hp hv) h1
        case properties =>
          obtain ⟨hv, h2⟩ := facetOf_text (s := "properties") hfac (by decide) (by decide)
          obtain rfl : kd = .object := by cases kd <;> first | rfl | (revert h2; decide)
          cases v with
          | map qs =>
            intro q hq
            have h2 : sizeOf q.2 < sizeOf (Node.map qs) := size_entry hq
            exact sub q.2 (.property hk hp hv hq) (by omega)
          | scalar a b => intro q hq; cases hq
          | seq a b => intro q hq; cases hq
        case facets =>
          obtain ⟨hv, h2⟩ := facetOf_text (s := "facets") hfac (by decide) (by decide)
          have hb : isBasic kd = false := by cases kd <;> first | rfl | (revert h2; decide)
          cases v with
          | map qs =>
            rintro ⟨k', w⟩ hq r hr
            have h2 : sizeOf w < sizeOf (Node.map qs) := size_entry hq
            cases w with
            | map rs =>
              have h3 : sizeOf r.2 < sizeOf (Node.map rs) := size_entry hr
              exact sub r.2 (.facet hk hb hp hv hq hr) (by omega)
            | scalar a b => cases hr
            | seq a b => cases hr
          | scalar a b => intro q hq; cases hq
          | seq a b => intro q hq; cases hq
        all_goals trivial

/-- An object type with a property that is an array of strings is accepted. -/
example : ∃ t, hat Xyml.std (.map [(.str "properties", .map [(.str "tags", .map
    [(.str "type", .str "array"), (.str "items", .str "string")])])]) = .ok t := by
  exact Res.isOk_iff.mp (by decide +kernel)

/-- The same definition with a sequence as the item type is not accepted: the sequence stands two
levels down. -/
example (X : Xyml) (tag : String) (ns : List Node) : ¬ ∃ t, hat X (.map [(.str "properties",
    .map [(.str "tags", .map [(.str "type", .str "array"), (.str "items", .seq tag ns)])])]) =
    .ok t := by
  rw [C54_type_accepted]
  exact fun h => h.2 (.seq tag ns) (.trans
    (.property (k := .str "properties") (k' := .str "tags") rfl (.head _) rfl (.head _))
    (.items (k := .str "items") rfl (.tail _ (.head _)) rfl))

/-- An expanded example whose `displayName` is a sequence is not accepted. -/
example (X : Xyml) (ns : List Node) : ¬ ∃ e, (Example.new .string).unmarshal X
    (.map [(.str "value", .str "v"), (.str "displayName", .seq "!!seq" ns)]) = .ok e := by
  rw [C54_example_accepted]
  intro h
  exact absurd ((h _ (.tail _ (.head _))).text rfl (.inl rfl)) (by simp [Node.isStr])

/-- XML settings with a name are accepted; with a sequence as the name they are not. -/
example (X : Xyml) : (∃ x, loadXML X (.map [(.str "name", .str "n")]) = .ok x) ∧
    ¬ ∃ x, loadXML X (.map [(.str "name", .seq "!!seq" [])]) = .ok x := by
  refine ⟨⟨_, rfl⟩, fun h => ?_⟩
  exact absurd (((C54_xml_accepted X _).mp h).2 _ (.head _))
    (by simp [XmlEntryOk, Node.isStr, Node.value, Node.str])

/-! ### Documents -/

/-- An acceptable documentation entry. -/
def DocOk (X : Xyml) (n : Node) : Prop := isMap n = true ∧ ∀ p ∈ mapEntries n,
  p.1.value = "title" ∨ p.1.value = "content" ∨ X.toScalar p.1 ≠ none

/-- An acceptable top-level entry `k: v` of part `s` of an API document. -/
def ApiPartOk (X : Xyml) (k v : Node) : ApiSection → Prop
  | .title | .version | .baseUri | .description => v.isStr = true
  | .protocols | .securedBy => StrSeq v
  | .mediaType => v.isStr = true ∨ StrSeq v
  | .documentation => isSeq v = true ∧ ∀ n ∈ seqItems v, DocOk X n
  | .uses => StrMap v ∧ ∀ p ∈ mapEntries v, p.2.isStr = true
  | .securitySchemes | .baseUriParameters | .traits | .annotationTypes | .resourceTypes
  | .annotations => StrMap v
  | .types => StrMap v ∧ ∀ p ∈ mapEntries v, TypeOk X p.2
  | .resources => True
  | .extra => k ≠ Node.str "" ∧ X.toScalar k ≠ none

/-- An acceptable top-level entry `k: v` of part `s` of a library. -/
def LibPartOk (X : Xyml) (k v : Node) : LibSection → Prop
  | .usage => v.isStr = true
  | .uses => StrMap v ∧ ∀ p ∈ mapEntries v, p.2.isStr = true
  | .resourceTypes | .traits | .securitySchemes => StrMap v
  | .annotations => StrMap v ∧
    (k.value = "annotationTypes" → ∀ p ∈ mapEntries v, StrMap p.2)
  | .types => StrMap v ∧ ∀ p ∈ mapEntries v, TypeOk X p.2
  | .extra => k ≠ Node.str "" ∧ X.toScalar k ≠ none

private theorem acc_doc {X : Xyml} {n : Node} : Acc (loadDocumentation X n) ↔ DocOk X n := by
  refine acc_mapForEach (f := Documentation.assign X) (Q := fun p => p.1.value = "title" ∨
    p.1.value = "content" ∨ X.toScalar p.1 ≠ none) fun p _ s => ?_
  unfold Documentation.assign
  by_cases h1 : p.1.value = "title"
  · simp [h1, acc_ok]
  by_cases h2 : p.1.value = "content"
  · simp [h2, acc_ok]
  simp [h1, h2, acc_map, acc_asScalar]

private theorem acc_extra {X : Xyml} {k v : Node} {m : OM Scalar Node} :
    Acc (if k.isStr && k.value == "" then .panic .emptyKey
      else (asScalar X k).map fun s => OM.put m s v) ↔
    k ≠ Node.str "" ∧ X.toScalar k ≠ none := by
  by_cases hs : k.isStr = true
  · rw [ne_emptyStr hs]
    by_cases hv : k.value = ""
    · simp [hs, hv, Acc]
    · simp [hs, hv, acc_map, acc_asScalar]
  · have : k ≠ Node.str "" := fun h => hs (by rw [h]; rfl)
    simp [hs, this, acc_map, acc_asScalar]

private theorem acc_types {X : Xyml} {v : Node} {m : OM String DT} : Acc (loadTypes X v m) ↔
    StrMap v ∧ ∀ p ∈ mapEntries v, TypeOk X p.2 := by
  rw [acc_loadTypes]
  simp only [C54_type_accepted]

theorem acc_apiStep {X : Xyml} {k v : Node} {s : ApiSection} (x : s.Ty) :
    Acc (apiStep X k v s x) ↔ ApiPartOk X k v s := by
  cases s
  case title => exact acc_asString
  case version | baseUri | description => exact acc_map.trans acc_asString
  case protocols | securedBy => exact acc_map.trans acc_stringList
  case mediaType =>
    simp only [apiStep, ApiPartOk]
    by_cases hs : v.isStr = true
    · simp only [hs, if_true, true_or, iff_true]; exact ⟨_, rfl⟩
    · simp only [hs, Bool.false_eq_true, if_false, false_or]
      exact acc_map.trans acc_stringList
  case documentation =>
    exact acc_seqForEach (Q := DocOk X) fun n s => acc_map.trans acc_doc
  case uses => exact acc_loader (Q := fun v => v.isStr = true) fun _ _ => acc_asString
  case types => exact acc_types
  case annotations => exact acc_map.trans acc_ann
  case resources => exact acc_ok
  case extra => exact acc_extra
  all_goals exact acc_untyped

theorem acc_libStep {X : Xyml} {k v : Node} {s : LibSection} (x : s.Ty) :
    Acc (libStep X k v s x) ↔ LibPartOk X k v s := by
  cases s
  case usage => exact acc_map.trans acc_asString
  case uses => exact acc_loader (Q := fun v => v.isStr = true) fun _ _ => acc_asString
  case types => exact acc_types
  case annotations =>
    simp only [libStep, LibPartOk]
    by_cases hk : k.value = "annotationTypes"
    · simp only [hk, true_implies]
      exact acc_loader (g := loadAnn) (Q := StrMap) fun _ _ => acc_ann
    · simp only [hk, false_implies, and_true]
      exact acc_map.trans acc_ann
  case extra => exact acc_extra
  all_goals exact acc_untyped

/-- C55: exactly which API documents are accepted. -/
theorem C55_api_accepted (X : Xyml) (n : Node) : (∃ a, parseApi X n = .ok a) ↔
    isMap n = true ∧ ∀ p ∈ mapEntries n, ApiPartOk X p.1 p.2 (apiSectionOf p) := by
  refine acc_mapForEach (f := fun k v a => APISpec.assign X k v a) fun p _ s => ?_
  rw [api_assign_eq]
  exact acc_map.trans (acc_apiStep _)

/-- C56: exactly which libraries are accepted; an input without a document is. -/
theorem C56_library_accepted (X : Xyml) (n : Option Node) : (∃ l, parseLibrary X n = .ok l) ↔
    ∀ v, n = some v →
      isMap v = true ∧ ∀ p ∈ mapEntries v, LibPartOk X p.1 p.2 (libSectionOf p) := by
  cases n with
  | none => exact ⟨(fun _ v h => (nomatch h)), fun _ => ⟨_, rfl⟩⟩
  | some v =>
    refine Iff.trans (acc_mapForEach (f := fun k v a => Library.assign X k v a)
      (Q := fun p => LibPartOk X p.1 p.2 (libSectionOf p)) fun p _ s => ?_)
      ⟨fun h w hw => Option.some.inj hw ▸ h, fun h => h v rfl⟩
    rw [lib_assign_eq]
    exact acc_map.trans (acc_libStep _)

/-- C55, C56: acceptance depends only on the entries, not on their order or multiplicity: with the
same set of entries, either both documents are accepted or neither is. -/
theorem C55_same_entries (X : Xyml) (ps qs : List (Node × Node)) (h : ∀ p, p ∈ ps ↔ p ∈ qs) :
    ((∃ a, parseApi X (.map ps) = .ok a) ↔ ∃ a, parseApi X (.map qs) = .ok a) ∧
    ((∃ a, parseLibrary X (some (.map ps)) = .ok a) ↔
      ∃ a, parseLibrary X (some (.map qs)) = .ok a) := by
  simp only [C55_api_accepted, C56_library_accepted, Option.some.injEq, forall_eq', isMap,
    mapEntries, h]
  exact ⟨trivial, trivial⟩

/-- A document with a title, a resource and a type is accepted; one whose title is a sequence is
not, wherever the title stands. -/
example (X : Xyml) (ps : List (Node × Node)) (h : (.str "title", .seq "!!seq" []) ∈ ps) :
    (∃ a, parseApi Xyml.std (.map [(.str "title", .str "t"), (.str "/r", .map []),
      (.str "types", .map [(.str "T", .str "string")])]) = .ok a) ∧
    ¬ ∃ a, parseApi X (.map ps) = .ok a := by
  refine ⟨Res.isOk_iff.mp (by decide +kernel), fun ha => ?_⟩
  have := ((C55_api_accepted X _).mp ha).2 _ h
  exact absurd (show (Node.seq "!!seq" []).isStr = true from this) (by decide)

/-- An input without a document is an acceptable library; a sequence is not; and
`annotationTypes: {a: string}` is not either, although that is how RAML declares an annotation
type. -/
example (X : Xyml) : (∃ l, parseLibrary X none = .ok l) ∧
    (¬ ∃ l, parseLibrary X (some (.seq "!!seq" [])) = .ok l) ∧
    ¬ ∃ l, parseLibrary X (some (.map [(.str "annotationTypes",
      .map [(.str "a", .str "string")])])) = .ok l := by
  simp only [C56_library_accepted]
  refine ⟨(fun _ h => (nomatch h)), fun h => absurd (h _ rfl).1 (by decide), fun h => ?_⟩
  exact absurd (((h _ rfl).2 _ (.head _)).2 rfl _ (.head _)).1 (by decide)

end Verif.Props
