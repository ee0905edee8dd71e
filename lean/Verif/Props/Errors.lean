import Verif.Props.Crashes

/-! # C106: exactly which input is reported as which error -/

namespace Verif.Props
open Verif Verif.Doc Verif.Doc.Spec

/-! ### Vocabulary

The errors are told apart by the call that reports them.  `Reaches ok ps p` says that the entry `p`
is the first one in `ps` that can be a problem. -/

/-- The item `n` stands in `ns` and every item before it is acceptable. -/
def ReachesItem (ok : Node → Prop) (ns : List Node) (n : Node) : Prop :=
  ∃ pre post, ns = pre ++ n :: post ∧ ∀ m ∈ pre, ok m

/-- What is reported for a value that is no example of kind `kd`. -/
def exampleErr : Kind → Err
  | .boolean => .notBool
  | .integer => .notInt
  | .number => .notFloat
  | .array => .notSeq
  | _ => .notString

/-- What is reported for a value that is no enum value of kind `kd`. -/
def enumErr : Kind → Err
  | .boolean => .notBool
  | .integer => .notInt
  | .number => .notFloat
  | _ => .notText

/-- What is wrong with a node that should be a sequence of strings. -/
def StrSeqErr (e : Err) (v : Node) : Prop :=
  isSeq v = false ∧ e = .notSeq ∨ (∃ n ∈ seqItems v, n.isStr = false) ∧ e = .notString

/-- What is wrong with a node that should be a mapping with string keys. -/
def StrMapErr (e : Err) (v : Node) : Prop :=
  isMap v = false ∧ e = .notMap ∨ (∃ p ∈ mapEntries v, p.1.isStr = false) ∧ e = .notString

/-- What is wrong with an entry of an expanded example of kind `kd`. -/
def ExampleEntryErr (X : Xyml) (kd : Kind) (e : Err) (p : Node × Node) : Prop :=
  p.1 ≠ Node.str "" ∧ isExampleExtra p = true ∧ X.toScalar p.1 = none ∧ e = .notScalar ∨
  startsWith '(' p.1 = true ∧ StrMapErr e p.2 ∨
  p.1.isStr = true ∧ (p.1.value = "displayName" ∨ p.1.value = "description") ∧
    p.2.isStr = false ∧ e = .notString ∨
  p.1.isStr = true ∧ p.1.value = "strict" ∧ X.toBool p.2 = none ∧ e = .notBool ∨
  p.1.isStr = true ∧ p.1.value = "value" ∧ exampleElem X kd p.2 = none ∧ e = exampleErr kd

/-- What is wrong with an example of kind `kd`: in an expanded example the first problem counts. -/
def ExampleErr (X : Xyml) (kd : Kind) (e : Err) (v : Node) : Prop :=
  if isMap v then ∃ p, Reaches (ExampleEntryOk X kd) (mapEntries v) p ∧ ExampleEntryErr X kd e p
  else exampleElem X kd v = none ∧ e = exampleErr kd

/-- What is wrong with an entry of XML settings. -/
def XmlEntryErr (X : Xyml) (e : Err) (p : Node × Node) : Prop :=
  if p.1.value = "attribute" ∨ p.1.value = "wrapped" then X.toBool p.2 = none ∧ e = .notBool
  else if p.1.value = "name" ∨ p.1.value = "namespace" ∨ p.1.value = "prefix" then
    p.2.isStr = false ∧ e = .notString
  else X.toScalar p.1 = none ∧ e = .notScalar

/-- What is wrong with XML settings. -/
def XmlErr (X : Xyml) (e : Err) (v : Node) : Prop :=
  isMap v = false ∧ e = .notMap ∨
  ∃ p, Reaches (XmlEntryOk X) (mapEntries v) p ∧ XmlEntryErr X e p

/-- An acceptable named type definition. -/
def NamedOk (X : Xyml) (p : Node × Node) : Prop := p.1.isStr = true ∧ TypeOk X p.2

/-- An acceptable property. -/
def PropOk (X : Xyml) (p : Node × Node) : Prop :=
  p.1.isStr = true ∧ TypeOk X p.2 ∧ ¬ DefBasic p.2

/-- An acceptable group of facet declarations. -/
def GroupOk (X : Xyml) (p : Node × Node) : Prop :=
  p.1.isStr = true ∧ StrMap p.2 ∧ ∀ q ∈ mapEntries p.2, TypeOk X q.2

/-- What is wrong with the value of facet `f` of a type of kind `kd`, apart from problems in
the type definitions nested in it. -/
def FacetErr (X : Xyml) (kd : Kind) (e : Err) (v : Node) : Facet → Prop
  | .type | .displayName | .description | .pattern | .discriminator =>
    v.isStr = false ∧ e = .notString
  | .format => v.isStr = false ∧ e = if kd = .datetime then .badFormat else .notString
  | .required | .uniqueItems | .additionalProperties => X.toBool v = none ∧ e = .notBool
  | .enum => isSeq v = false ∧ e = .notSeq ∨
      (∃ n ∈ seqItems v, enumElem X kd n = none) ∧ e = enumErr kd
  | .example => hasExamples kd = false ∧ e = .noExample ∨
      hasExamples kd = true ∧ ExampleErr X kd e v
  | .examples => isMap v = false ∧ e = .notMap ∨
      ∃ p, Reaches (fun q => q.1.isStr = true ∧ ExampleOk X kd q.2) (mapEntries v) p ∧
        (p.1.isStr = false ∧ e = .notString ∨ p.1.isStr = true ∧ ExampleErr X kd e p.2)
  | .xml => XmlErr X e v
  | .annotations => StrMapErr e v
  | .facets => isMap v = false ∧ e = .notMap ∨
      ∃ p, Reaches (GroupOk X) (mapEntries v) p ∧
        (p.1.isStr = false ∧ e = .notString ∨ p.1.isStr = true ∧ isMap p.2 = false ∧ e = .notMap ∨
        p.1.isStr = true ∧ ∃ q, Reaches (NamedOk X) (mapEntries p.2) q ∧ q.1.isStr = false ∧
          e = .notString)
  | .properties => isMap v = false ∧ e = .notMap ∨
      ∃ p, Reaches (PropOk X) (mapEntries v) p ∧ p.1.isStr = false ∧ e = .notString
  | .extra | .items | .discriminatorValue => False
  | .minLength | .maxLength | .minItems | .maxItems | .minProperties | .maxProperties =>
    X.toInt v = none ∧ e = .notInt
  | .fileTypes => StrSeqErr e v
  | .minimum | .maximum =>
    if kd = .integer then X.toInt v = none ∧ e = .notInt else X.toFlt v = none ∧ e = .notFloat
  | .multipleOf => X.toFlt v = none ∧ e = .notFloat

/-- The type definition is reported as the error: the first problem, reading the entries in order
and each nested definition where it stands, is the one reported. -/
inductive Rejects (X : Xyml) : Err → Node → Prop where
  /-- A scalar that is neither a string nor an include. -/
  | scalar {t s} : t ≠ "!!str" → t ≠ "!include" → Rejects X .badTypeDef (.scalar t s)
  /-- Several types. -/
  | seq {t ns} : Rejects X .multiType (.seq t ns)
  /-- Several types in an expanded definition, whatever stands before them. -/
  | typeSeq {ps k t ns} : ps.find? isTypeEntry = some (k, .seq t ns) →
      Rejects X .multiType (.map ps)
  /-- A mapping as the type, whatever stands before it. -/
  | typeMap {ps k qs} : ps.find? isTypeEntry = some (k, .map qs) →
      Rejects X .badTypeKey (.map ps)
  /-- Another scalar as the type, whatever stands before it. -/
  | typeScalar {ps k t s} : ps.find? isTypeEntry = some (k, .scalar t s) → t ≠ "!!str" →
      t ≠ "!include" → Rejects X .badTypeKey (.map ps)
  /-- An include as the type, whatever stands before it. -/
  | typeInclude {ps k s} : ps.find? isTypeEntry = some (k, .scalar "!include" s) →
      Rejects X .notString (.map ps)
  /-- An entry. -/
  | entry {ps kd k v e} : kindOf ps = some kd → Reaches (EntryOk X kd) ps (k, v) →
      FacetErr X kd e v (facetOf kd (k, v)) → Rejects X e (.map ps)
  /-- The definition of the items. -/
  | inItems {ps k v e} : kindOf ps = some .array → Reaches (EntryOk X .array) ps (k, v) →
      k.value = "items" → Rejects X e v → Rejects X e (.map ps)
  /-- The definition of a property. -/
  | inProperty {ps k v k' w e} : kindOf ps = some .object →
      Reaches (EntryOk X .object) ps (k, v) → k.value = "properties" →
      Reaches (PropOk X) (mapEntries v) (k', w) → k'.isStr = true → Rejects X e w →
      Rejects X e (.map ps)
  /-- The definition in a facet declaration. -/
  | inFacet {ps kd k v k' w k'' u e} : kindOf ps = some kd → isBasic kd = false →
      Reaches (EntryOk X kd) ps (k, v) → k.value = "facets" →
      Reaches (GroupOk X) (mapEntries v) (k', w) → k'.isStr = true →
      Reaches (NamedOk X) (mapEntries w) (k'', u) → k''.isStr = true → Rejects X e u →
      Rejects X e (.map ps)

/-- What is wrong with an entry of the documentation. -/
def DocErr (X : Xyml) (e : Err) (n : Node) : Prop :=
  isMap n = false ∧ e = .notMap ∨
  (∃ p ∈ mapEntries n, p.1.value ≠ "title" ∧ p.1.value ≠ "content" ∧ X.toScalar p.1 = none) ∧
    e = .notScalar

/-- What is wrong with a mapping of strings. -/
def UsesErr (e : Err) (v : Node) : Prop :=
  isMap v = false ∧ e = .notMap ∨
  (∃ p ∈ mapEntries v, p.1.isStr = false ∨ p.2.isStr = false) ∧ e = .notString

/-- What is wrong with a mapping of named type definitions. -/
def TypesErr (X : Xyml) (e : Err) (v : Node) : Prop :=
  isMap v = false ∧ e = .notMap ∨ ∃ p, Reaches (NamedOk X) (mapEntries v) p ∧
    (p.1.isStr = false ∧ e = .notString ∨ p.1.isStr = true ∧ Rejects X e p.2)

/-- What is wrong with a top-level entry `k: v` of part `s` of an API document. -/
def ApiPartErr (X : Xyml) (e : Err) (k v : Node) : ApiSection → Prop
  | .title | .version | .baseUri | .description => v.isStr = false ∧ e = .notString
  | .protocols | .securedBy => StrSeqErr e v
  | .mediaType => v.isStr = false ∧ StrSeqErr e v
  | .documentation => isSeq v = false ∧ e = .notSeq ∨
      ∃ n, ReachesItem (DocOk X) (seqItems v) n ∧ DocErr X e n
  | .uses => UsesErr e v
  | .securitySchemes | .baseUriParameters | .traits | .annotationTypes | .resourceTypes
  | .annotations => StrMapErr e v
  | .types => TypesErr X e v
  | .resources => False
  | .extra => k ≠ Node.str "" ∧ X.toScalar k = none ∧ e = .notScalar

/-- What is wrong with a top-level entry `k: v` of part `s` of a library. -/
def LibPartErr (X : Xyml) (e : Err) (k v : Node) : LibSection → Prop
  | .usage => v.isStr = false ∧ e = .notString
  | .uses => UsesErr e v
  | .resourceTypes | .traits | .securitySchemes => StrMapErr e v
  | .annotations =>
    if k.value = "annotationTypes" then isMap v = false ∧ e = .notMap ∨
      ∃ p, Reaches (fun q => q.1.isStr = true ∧ StrMap q.2) (mapEntries v) p ∧
        (p.1.isStr = false ∧ e = .notString ∨ p.1.isStr = true ∧ StrMapErr e p.2)
    else StrMapErr e v
  | .types => TypesErr X e v
  | .extra => k ≠ Node.str "" ∧ X.toScalar k = none ∧ e = .notScalar

/-- The API document is reported as the error. -/
def ApiRejects (X : Xyml) (e : Err) (n : Node) : Prop :=
  isMap n = false ∧ e = .notMap ∨
  ∃ p, Reaches (fun p => ApiPartOk X p.1 p.2 (apiSectionOf p)) (mapEntries n) p ∧
    ApiPartErr X e p.1 p.2 (apiSectionOf p)

/-- The library is reported as the error. -/
def LibRejects (X : Xyml) (e : Err) (n : Node) : Prop :=
  isMap n = false ∧ e = .notMap ∨
  ∃ p, Reaches (fun p => LibPartOk X p.1 p.2 (libSectionOf p)) (mapEntries n) p ∧
    LibPartErr X e p.1 p.2 (libSectionOf p)

/-! ### Loops -/

private theorem bind_eq_err {α β : Type} {r : Res α} {f : α → Res β} {e : Err} :
    r.bind f = .err e ↔ r = .err e ∨ ∃ a, r = .ok a ∧ f a = .err e := by
  cases r <;> simp

private theorem map_eq_err {α β : Type} {r : Res α} {f : α → β} {e : Err} :
    r.map f = .err e ↔ r = .err e := by
  cases r <;> simp [Res.map]

private theorem asString_err {v : Node} {e : Err} :
    asString v = .err e ↔ v.isStr = false ∧ e = .notString := by
  unfold asString
  cases h : v.isStr <;> simp [@eq_comm _ e]

private theorem asBool_err {X : Xyml} {v : Node} {e : Err} :
    asBool X v = .err e ↔ X.toBool v = none ∧ e = .notBool := by
  unfold asBool
  cases h : X.toBool v <;> simp [@eq_comm _ e]

private theorem asInt_err {X : Xyml} {v : Node} {e : Err} :
    asInt X v = .err e ↔ X.toInt v = none ∧ e = .notInt := by
  unfold asInt
  cases h : X.toInt v <;> simp [@eq_comm _ e]

private theorem asFlt_err {X : Xyml} {v : Node} {e : Err} :
    asFlt X v = .err e ↔ X.toFlt v = none ∧ e = .notFloat := by
  unfold asFlt
  cases h : X.toFlt v <;> simp [@eq_comm _ e]

private theorem asUint_err {X : Xyml} {v : Node} {e : Err} :
    asUint X v = .err e ↔ X.toInt v = none ∧ e = .notInt := map_eq_err.trans asInt_err

private theorem asScalar_err {X : Xyml} {v : Node} {e : Err} :
    asScalar X v = .err e ↔ X.toScalar v = none ∧ e = .notScalar := by
  unfold asScalar
  cases h : X.toScalar v <;> simp [@eq_comm _ e]

private theorem err_pairs {σ : Type} {f : Node → Node → σ → Res σ} {I : σ → Prop} {e : Err}
    {Q E : Node × Node → Prop} (hI : ∀ k v s s', I s → f k v s = .ok s' → I s') :
    ∀ ps s, (∀ p ∈ ps, ∀ s, I s → (Acc (f p.1 p.2 s) ↔ Q p)) →
      (∀ p ∈ ps, ∀ s, I s → (f p.1 p.2 s = .err e ↔ E p)) → I s →
      (forPairs f ps s = .err e ↔ ∃ p, Reaches Q ps p ∧ E p) := by
  intro ps
  induction ps with
  | nil =>
    intro s _ _ _
    constructor
    · intro h; cases h
    · rintro ⟨p, h, _⟩; exact absurd h reaches_nil
  | cons p ps ih =>
    intro s hQ hP hs
    have h1 := hQ p (by simp) s hs
    have h2 := hP p (by simp) s hs
    have ih := fun s hs => ih s (fun p hp => hQ p (by simp [hp])) (fun p hp => hP p (by simp [hp]))
      hs
    simp only [reaches_cons]
    refine bind_eq_err.trans ?_
    constructor
    · rintro (h | ⟨s1, h3, h4⟩)
      · exact ⟨p, .inl rfl, h2.mp h⟩
      · obtain ⟨q, hq, hPq⟩ := (ih s1 (hI _ _ _ _ hs h3)).mp h4
        exact ⟨q, .inr ⟨h1.mp ⟨s1, h3⟩, hq⟩, hPq⟩
    · rintro ⟨q, rfl | ⟨hp, hq⟩, hPq⟩
      · exact .inl (h2.mpr hPq)
      · obtain ⟨s1, h3⟩ := h1.mpr hp
        exact .inr ⟨s1, h3, (ih s1 (hI _ _ _ _ hs h3)).mpr ⟨q, hq, hPq⟩⟩

private theorem err_mapForEach {σ : Type} {f : Node → Node → σ → Res σ} {e : Err}
    {Q E : Node × Node → Prop} {v : Node} {s : σ}
    (hQ : ∀ p ∈ mapEntries v, ∀ s, (Acc (f p.1 p.2 s) ↔ Q p))
    (hE : ∀ p ∈ mapEntries v, ∀ s, (f p.1 p.2 s = .err e ↔ E p)) :
    mapForEach f v s = .err e ↔ isMap v = false ∧ e = .notMap ∨
      ∃ p, Reaches Q (mapEntries v) p ∧ E p := by
  cases v with
  | scalar a b =>
    simp only [mapForEach, isMap, mapEntries, reaches_nil, false_and, exists_false, or_false,
      true_and, Res.err.injEq]
    exact eq_comm
  | seq a b =>
    simp only [mapForEach, isMap, mapEntries, reaches_nil, false_and, exists_false, or_false,
      true_and, Res.err.injEq]
    exact eq_comm
  | map ps =>
    have := err_pairs (f := f) (e := e) (I := fun _ => True) (fun _ _ _ _ _ _ => trivial) ps s
      (fun p hp s _ => hQ p hp s) (fun p hp s _ => hE p hp s) trivial
    exact this.trans ⟨.inr, fun h => h.resolve_left fun h => nomatch h.1⟩

private theorem reachesItem_nil {ok : Node → Prop} {n : Node} : ¬ ReachesItem ok [] n := by
  rintro ⟨pre, post, h, _⟩
  cases pre <;> cases h

private theorem reachesItem_cons {ok : Node → Prop} {m n : Node} {ns : List Node} :
    ReachesItem ok (m :: ns) n ↔ m = n ∨ ok m ∧ ReachesItem ok ns n := by
  constructor
  · rintro ⟨pre, post, h, hok⟩
    cases pre with
    | nil => cases h; exact .inl rfl
    | cons r pre =>
      cases h
      exact .inr ⟨hok _ (by simp), pre, post, rfl, fun x hx => hok x (by simp [hx])⟩
  · rintro (rfl | ⟨h1, pre, post, rfl, hok⟩)
    · exact ⟨[], ns, rfl, by simp⟩
    · exact ⟨m :: pre, post, rfl, by simpa using ⟨h1, hok⟩⟩

private theorem err_seqForEach {σ : Type} {f : Node → σ → Res σ} {e : Err} {Q E : Node → Prop}
    {v : Node} {s : σ} (hQ : ∀ n s, (Acc (f n s) ↔ Q n)) (hE : ∀ n s, (f n s = .err e ↔ E n)) :
    seqForEach f v s = .err e ↔ isSeq v = false ∧ e = .notSeq ∨
      ∃ n, ReachesItem Q (seqItems v) n ∧ E n := by
  cases v with
  | scalar a b =>
    simp only [seqForEach, isSeq, seqItems, reachesItem_nil, false_and, exists_false, or_false,
      true_and, Res.err.injEq]
    exact eq_comm
  | map a =>
    simp only [seqForEach, isSeq, seqItems, reachesItem_nil, false_and, exists_false, or_false,
      true_and, Res.err.injEq]
    exact eq_comm
  | seq a ns =>
    have : ∀ ns s, forItems f ns s = .err e ↔ ∃ n, ReachesItem Q ns n ∧ E n := by
      intro ns
      induction ns with
      | nil =>
        intro s
        simp only [forItems, reachesItem_nil, false_and, exists_false, iff_false]
        exact fun h => nomatch h
      | cons n ns ih =>
        intro s
        simp only [reachesItem_cons]
        refine bind_eq_err.trans ?_
        constructor
        · rintro (h | ⟨s1, h3, h4⟩)
          · exact ⟨n, .inl rfl, (hE n s).mp h⟩
          · obtain ⟨q, hq, hPq⟩ := (ih s1).mp h4
            exact ⟨q, .inr ⟨(hQ n s).mp ⟨s1, h3⟩, hq⟩, hPq⟩
        · rintro ⟨q, rfl | ⟨hp, hq⟩, hPq⟩
          · exact .inl ((hE n s).mpr hPq)
          · obtain ⟨s1, h3⟩ := (hQ n s).mpr hp
            exact .inr ⟨s1, h3, (ih s1).mpr ⟨q, hq, hPq⟩⟩
    exact (this ns s).trans ⟨.inr, fun h => h.resolve_left fun h => nomatch h.1⟩

/-- When everything unacceptable is the same error, only whether there is such an item counts. -/
private theorem first_item {ok : Node → Prop} {ns : List Node} {P : Prop} :
    (∃ n, ReachesItem ok ns n ∧ ¬ ok n ∧ P) ↔ (∃ n ∈ ns, ¬ ok n) ∧ P := by
  induction ns with
  | nil => simp [reachesItem_nil]
  | cons m ns ih =>
    simp only [reachesItem_cons, List.mem_cons]
    constructor
    · rintro ⟨n, rfl | ⟨hm, hr⟩, hn, hP⟩
      · exact ⟨⟨m, .inl rfl, hn⟩, hP⟩
      · obtain ⟨⟨x, hx, hx'⟩, _⟩ := ih.mp ⟨n, hr, hn, hP⟩
        exact ⟨⟨x, .inr hx, hx'⟩, hP⟩
    · rintro ⟨⟨n, hmem, hn⟩, hP⟩
      by_cases hm : ok m
      · have hns : ∃ n ∈ ns, ¬ ok n := by
          rcases hmem with rfl | h
          · exact absurd hm hn
          · exact ⟨n, h, hn⟩
        obtain ⟨x, hx, hx'⟩ := ih.mpr ⟨hns, hP⟩
        exact ⟨x, .inr ⟨hm, hx⟩, hx'⟩
      · exact ⟨m, .inl rfl, hm, hP⟩

private theorem first_entry {ok : Node × Node → Prop} {ns : List (Node × Node)} {P : Prop} :
    (∃ n, Reaches ok ns n ∧ ¬ ok n ∧ P) ↔ (∃ n ∈ ns, ¬ ok n) ∧ P := by
  induction ns with
  | nil => simp [reaches_nil]
  | cons m ns ih =>
    simp only [reaches_cons, List.mem_cons]
    constructor
    · rintro ⟨n, rfl | ⟨hm, hr⟩, hn, hP⟩
      · exact ⟨⟨m, .inl rfl, hn⟩, hP⟩
      · obtain ⟨⟨x, hx, hx'⟩, _⟩ := ih.mp ⟨n, hr, hn, hP⟩
        exact ⟨⟨x, .inr hx, hx'⟩, hP⟩
    · rintro ⟨⟨n, hmem, hn⟩, hP⟩
      by_cases hm : ok m
      · have hns : ∃ n ∈ ns, ¬ ok n := by
          rcases hmem with rfl | h
          · exact absurd hm hn
          · exact ⟨n, h, hn⟩
        obtain ⟨x, hx, hx'⟩ := ih.mpr ⟨hns, hP⟩
        exact ⟨x, .inr ⟨hm, hx⟩, hx'⟩
      · exact ⟨m, .inl rfl, hm, hP⟩

private theorem err_seq_uniform {σ : Type} {f : Node → σ → Res σ} {e e0 : Err} {Q : Node → Prop}
    {v : Node} {s : σ} (hQ : ∀ n s, (Acc (f n s) ↔ Q n))
    (hE : ∀ n s, (f n s = .err e ↔ ¬ Q n ∧ e = e0)) :
    seqForEach f v s = .err e ↔ isSeq v = false ∧ e = .notSeq ∨
      (∃ n ∈ seqItems v, ¬ Q n) ∧ e = e0 :=
  (err_seqForEach hQ hE).trans (or_congr_right first_item)

private theorem err_map_uniform {σ : Type} {f : Node → Node → σ → Res σ} {e e0 : Err}
    {Q : Node × Node → Prop} {v : Node} {s : σ}
    (hQ : ∀ p ∈ mapEntries v, ∀ s, (Acc (f p.1 p.2 s) ↔ Q p))
    (hE : ∀ p ∈ mapEntries v, ∀ s, (f p.1 p.2 s = .err e ↔ ¬ Q p ∧ e = e0)) :
    mapForEach f v s = .err e ↔ isMap v = false ∧ e = .notMap ∨
      (∃ p ∈ mapEntries v, ¬ Q p) ∧ e = e0 :=
  (err_mapForEach hQ hE).trans (or_congr_right first_entry)

private theorem stringList_err {v : Node} {e : Err} : asStringList v = .err e ↔ StrSeqErr e v := by
  refine (err_seq_uniform (Q := fun n => n.isStr = true) (e0 := .notString)
    (fun _ _ => acc_map.trans acc_asString)
    (fun _ _ => map_eq_err.trans (asString_err.trans (by simp)))).trans ?_
  simp [StrSeqErr]

private theorem untyped_err {v : Node} {m : OM String Node} {e : Err} :
    loadUntyped m v = .err e ↔ StrMapErr e v := by
  refine (err_map_uniform (Q := fun p => p.1.isStr = true) (e0 := .notString)
    (fun _ _ _ => acc_map.trans acc_asString)
    (fun _ _ _ => map_eq_err.trans (asString_err.trans (by simp)))).trans ?_
  simp [StrMapErr]

private theorem ann_err {v : Node} {e : Err} : loadAnn v = .err e ↔ StrMapErr e v := untyped_err

/-- A loader of a dictionary. -/
private theorem err_loader {V : Type} {g : Node → Res V} {m : OM String V} {v : Node} {e : Err} :
    mapForEach (fun k v m => (asString k).bind fun s => (g v).map fun x => m.put s x) v m =
      .err e ↔ isMap v = false ∧ e = .notMap ∨
      ∃ p, Reaches (fun q => q.1.isStr = true ∧ Acc (g q.2)) (mapEntries v) p ∧
        (p.1.isStr = false ∧ e = .notString ∨ p.1.isStr = true ∧ g p.2 = .err e) := by
  refine err_mapForEach (fun p _ s => acc_bind_asString.trans (and_congr_right fun _ => acc_map))
    fun p _ s => ?_
  unfold asString
  cases h : p.1.isStr <;> simp [map_eq_err, @eq_comm _ e]

private theorem strings_err {v : Node} {m : OM String String} {e : Err} :
    loadStrings m v = .err e ↔ UsesErr e v := by
  refine (err_map_uniform (Q := fun p => p.1.isStr = true ∧ p.2.isStr = true) (e0 := .notString)
    (fun _ _ _ => acc_bind_asString.trans (and_congr_right fun _ => acc_map.trans acc_asString))
    (fun p _ _ => ?_)).trans ?_
  · unfold asString
    cases h : p.1.isStr <;> cases h2 : p.2.isStr <;> simp [eq_comm]
  · simp only [UsesErr, not_and_or, Bool.not_eq_true]

/-! ### Examples and XML settings -/

private theorem exampleVal_err {X : Xyml} {kd : Kind} {v : Node} {e : Err} :
    exampleVal X kd v = .err e ↔ exampleElem X kd v = none ∧ e = exampleErr kd := by
  cases kd
  case array => cases v <;> simp [exampleVal, exampleElem, isSeq, exampleErr, eq_comm]
  all_goals simp [exampleVal, exampleElem, exampleErr, map_eq_err, asString_err, asBool_err,
    asInt_err, asFlt_err]

theorem exampleEntry_err {X : Xyml} {kd : Kind} {k v : Node} {s : Example} {e : Err}
    (hs : s.kind = kd) : Example.assign X k v s = .err e ↔ ExampleEntryErr X kd e (k, v) := by
  unfold ExampleEntryErr
  unfold Example.assign Example.putExtra
  by_cases hstr : k.isStr = true
  · rw [if_neg (by simp [hstr])]
    cases hf : firstChar k.value with
    | none =>
      have h0 := firstChar_none.mp hf
      have hk : k = Node.str "" := eq_emptyStr hstr h0
      subst hk
      simp [startsWith, Node.str, Node.value, Node.isStr]
    | some c =>
      have hne : k.value ≠ "" := fun h => by rw [firstChar_none.mpr h] at hf; cases hf
      have hne' : k ≠ Node.str "" := fun h => hne (by rw [h]; rfl)
      have hst : startsWith '(' k = (c == '(') := startsWith_firstChar hstr hf
      simp only [hst, isExampleExtra, hstr, hne', ne_eq, not_false_eq_true, true_and,
        Bool.not_true, Bool.false_or]
      by_cases hc : c = '('
      · have hk : ∀ n ∈ exampleKeys, k.value ≠ n := by
          intro n hn he
          rw [he] at hf
          subst hc
          clear he
          revert n
          decide
        have h1 := hk "displayName" (by decide)
        have h2 := hk "description" (by decide)
        have h3 := hk "strict" (by decide)
        have h4 := hk "value" (by decide)
        simp [hc, map_eq_err, ann_err, h1, h2, h3, h4]
      · simp only [hc, if_false, beq_eq_false_iff_ne.mpr hc, Bool.not_false, Bool.true_and,
          Bool.false_eq_true, false_and, false_or]
        by_cases h1 : k.value = "displayName"
        · simp [h1, map_eq_err, asString_err, exampleKeys]
        by_cases h2 : k.value = "description"
        · simp [h2, map_eq_err, asString_err, exampleKeys]
        by_cases h3 : k.value = "strict"
        · simp [h3, map_eq_err, asBool_err, exampleKeys]
        by_cases h4 : k.value = "value"
        · simp [h4, map_eq_err, exampleVal_err, exampleKeys, hs]
        simp [h1, h2, h3, h4, map_eq_err, asScalar_err, exampleKeys]
  · have hne : k ≠ Node.str "" := fun h => hstr (by rw [h]; rfl)
    have hst : startsWith '(' k = false := by simp [startsWith, hstr]
    simp [hstr, hne, hst, isExampleExtra, map_eq_err, asScalar_err]

/-- C106: exactly which examples are reported as which error. -/
theorem C106_example (X : Xyml) (kd : Kind) (v : Node) (e : Err) :
    (Example.new kd).unmarshal X v = .err e ↔ ExampleErr X kd e v := by
  unfold ExampleErr
  cases v with
  | map ps =>
    rw [if_pos (show isMap (.map ps) = true from rfl)]
    exact err_pairs (f := Example.assign X) (I := fun u : Example => u.kind = kd)
      (fun k v s s' hI h => by
        rcases example_assign h with ⟨_, _, _, rfl⟩ | ⟨_, _, _, rfl⟩ | ⟨_, _, _, rfl⟩ |
          ⟨_, _, _, rfl⟩ | ⟨_, _, _, _, rfl⟩ | ⟨_, _, _, _, rfl⟩ <;> exact hI)
      ps (Example.new kd) (fun p _ s hs => acc_exampleEntry hs)
      (fun p _ s hs => exampleEntry_err hs) rfl
  | scalar a b =>
    rw [if_neg (by simp [isMap])]
    exact map_eq_err.trans exampleVal_err
  | seq a b =>
    rw [if_neg (by simp [isMap])]
    exact map_eq_err.trans exampleVal_err

/-- C106: exactly which XML settings are reported as which error. -/
theorem C106_xml (X : Xyml) (v : Node) (e : Err) : loadXML X v = .err e ↔ XmlErr X e v := by
  have hq : ∀ p : Node × Node, ∀ s, Acc (XML.assign X p.1 p.2 s) ↔ XmlEntryOk X p := by
    intro p s
    unfold XML.assign XmlEntryOk
    by_cases h1 : p.1.value = "attribute"
    · simp [h1, acc_map, acc_asBool]
    by_cases h2 : p.1.value = "wrapped"
    · simp [h2, acc_map, acc_asBool]
    by_cases h3 : p.1.value = "name"
    · simp [h3, acc_map, acc_asString]
    by_cases h4 : p.1.value = "namespace"
    · simp [h4, acc_map, acc_asString]
    by_cases h5 : p.1.value = "prefix"
    · simp [h5, acc_map, acc_asString]
    simp [h1, h2, h3, h4, h5, acc_map, acc_asScalar]
  refine err_mapForEach (f := XML.assign X) (Q := XmlEntryOk X) (fun p _ s => hq p s)
    fun p _ s => ?_
  unfold XML.assign XmlEntryErr
  by_cases h1 : p.1.value = "attribute"
  · simp [h1, map_eq_err, asBool_err]
  by_cases h2 : p.1.value = "wrapped"
  · simp [h2, map_eq_err, asBool_err]
  by_cases h3 : p.1.value = "name"
  · simp [h3, map_eq_err, asString_err]
  by_cases h4 : p.1.value = "namespace"
  · simp [h4, map_eq_err, asString_err]
  by_cases h5 : p.1.value = "prefix"
  · simp [h5, map_eq_err, asString_err]
  simp [h1, h2, h3, h4, h5, map_eq_err, asScalar_err]

/-! ### Type definitions -/

private theorem loadExample_err {X : Xyml} {kd : Kind} {v : Node} {e : Err} :
    loadExample X kd v = .err e ↔ hasExamples kd = false ∧ e = .noExample ∨
      hasExamples kd = true ∧ ExampleErr X kd e v := by
  rw [← C106_example]
  unfold loadExample
  cases kd <;> simp [exampleSortingHat, hasExamples, isBasic, @eq_comm _ e]

private theorem enumVal_err {X : Xyml} {kd : Kind} {v : Node} {e : Err} :
    enumVal X kd v = .err e ↔ ¬ enumElem X kd v ≠ none ∧ e = enumErr kd := by
  cases kd <;> simp only [enumVal, enumElem, enumErr, map_eq_err, asBool_err, asInt_err, asFlt_err,
    ne_eq, not_not, Option.map_eq_none_iff, reduceCtorEq, false_and]
  all_goals cases X.toStr v <;> simp [@eq_comm _ e]

private theorem acc_enumVal {X : Xyml} {kd : Kind} {v : Node} :
    Acc (enumVal X kd v) ↔ enumElem X kd v ≠ none := by
  cases kd <;> simp only [enumVal, enumElem, acc_map, acc_asBool, acc_asInt, acc_asFlt, acc_ok,
    ne_eq, Option.map_eq_none_iff, reduceCtorEq, not_false_eq_true]
  all_goals cases X.toStr v <;> simp [Acc]

private theorem types_err {X : Xyml} {v : Node} {m : OM String DT} {e : Err} :
    loadTypes X v m = .err e ↔ isMap v = false ∧ e = .notMap ∨
      ∃ p, Reaches (NamedOk X) (mapEntries v) p ∧
        (p.1.isStr = false ∧ e = .notString ∨ p.1.isStr = true ∧ hat X p.2 = .err e) := by
  rw [loadTypes_eq, loadType_form, err_loader]
  simp only [Acc, C54_type_accepted]
  rfl

private theorem facets_err {X : Xyml} {v : Node} {m : OM String (OM String DT)} {e : Err} :
    loadFacets X v m = .err e ↔ isMap v = false ∧ e = .notMap ∨
      ∃ p, Reaches (GroupOk X) (mapEntries v) p ∧ (p.1.isStr = false ∧ e = .notString ∨
        p.1.isStr = true ∧ loadTypes X p.2 (OM.empty true) = .err e) := by
  rw [loadFacets_eq]
  have : (fun k v m => loadFacet X (k, v) m) = fun k v (m : OM String (OM String DT)) =>
      (asString k).bind fun s => (loadTypes X v (OM.empty true)).map fun x => m.put s x := by
    funext k v m
    unfold loadFacet
    rfl
  rw [this, err_loader]
  simp only [acc_loadTypes, C54_type_accepted]
  rfl

private theorem props_err {X : Xyml} {v : Node} {m : OM String DT} {e : Err} :
    loadProps X v m = .err e ↔ isMap v = false ∧ e = .notMap ∨
      ∃ p, Reaches (PropOk X) (mapEntries v) p ∧
        (p.1.isStr = false ∧ e = .notString ∨ p.1.isStr = true ∧ hat X p.2 = .err e) := by
  rw [loadProps_eq]
  refine err_mapForEach (Q := PropOk X) (fun p _ s => ?_) fun p _ s => ?_
  · unfold loadProp PropOk
    rw [← C54_type_accepted]
    refine acc_bind_asString.trans (and_congr_right fun _ => ?_)
    constructor
    · rintro ⟨u, hu⟩
      obtain ⟨t, ht, h2⟩ := Res.bind_eq_ok.mp hu
      split at h2
      · rename_i hp
        refine ⟨⟨t, ht⟩, fun hd => ?_⟩
        rw [hat_of_defBasic hd ht] at hp
        cases hp
      · cases h2
    · rintro ⟨⟨t, ht⟩, hd⟩
      rw [ht]
      cases hp : t.isProperty with
      | true => simp [hp, acc_ok]
      | false => exact absurd (defBasic_of_hat ht hp) hd
  · unfold loadProp asString
    cases h : p.1.isStr with
    | false => simp [@eq_comm _ e]
    | true =>
      simp only [if_true, Res.bind_ok, Bool.true_eq_false, false_and, true_and, false_or]
      refine bind_eq_err.trans ⟨fun h => h.resolve_right ?_, .inl⟩
      rintro ⟨t, _, h⟩
      split at h <;> cases h

/-- Problems in the definitions nested directly in the value of facet `f`. -/
def SubErr (X : Xyml) (e : Err) (v : Node) : Facet → Prop
  | .items => hat X v = .err e
  | .properties => ∃ k w, Reaches (PropOk X) (mapEntries v) (k, w) ∧ k.isStr = true ∧
      hat X w = .err e
  | .facets => ∃ k w, Reaches (GroupOk X) (mapEntries v) (k, w) ∧ k.isStr = true ∧
      ∃ k' u, Reaches (NamedOk X) (mapEntries w) (k', u) ∧ k'.isStr = true ∧ hat X u = .err e
  | _ => False

theorem facet_err {X : Xyml} {kd : Kind} {k v : Node} {f : Facet} {e : Err}
    (x : f.Ty) : facetStep X kd k v f x = .err e ↔ FacetErr X kd e v f ∨ SubErr X e v f := by
  have no : ∀ {p : Prop}, p ↔ p ∨ False := fun {p} => (or_false p).symm.to_iff
  cases f
  case extra =>
    simp only [facetStep, FacetErr, SubErr, or_self, iff_false]
    intro h
    split at h <;> cases h
  case enum =>
    refine Iff.trans (err_seq_uniform (e0 := enumErr kd) (fun n s => acc_map.trans acc_enumVal)
      (fun n s => map_eq_err.trans enumVal_err)) ?_
    simp only [FacetErr, SubErr, or_false, ne_eq, not_not]
  case «example» => exact (map_eq_err.trans loadExample_err).trans no
  case examples =>
    refine Iff.trans (err_loader (g := fun v => (Example.new kd).unmarshal X v)) (Iff.trans ?_ no)
    simp only [Acc, C54_example_accepted, C106_example, FacetErr]
  case xml => exact (map_eq_err.trans (C106_xml X v e)).trans no
  case annotations => exact (map_eq_err.trans ann_err).trans no
  case facets =>
    refine facets_err.trans ?_
    simp only [types_err, FacetErr, SubErr]
    constructor
    · rintro (h | ⟨p, hp, h | ⟨hs, h | ⟨q, hq, h | h⟩⟩⟩)
      · exact .inl (.inl h)
      · exact .inl (.inr ⟨p, hp, .inl h⟩)
      · exact .inl (.inr ⟨p, hp, .inr (.inl ⟨hs, h⟩)⟩)
      · exact .inl (.inr ⟨p, hp, .inr (.inr ⟨hs, q, hq, h⟩)⟩)
      · exact .inr ⟨p.1, p.2, hp, hs, q.1, q.2, hq, h⟩
    · rintro ((h | ⟨p, hp, h | ⟨hs, h⟩ | ⟨hs, q, hq, h⟩⟩) | ⟨k, w, hp, hs, k', u, hq, h⟩)
      · exact .inl h
      · exact .inr ⟨p, hp, .inl h⟩
      · exact .inr ⟨p, hp, .inr ⟨hs, .inl h⟩⟩
      · exact .inr ⟨p, hp, .inr ⟨hs, .inr ⟨q, hq, .inl h⟩⟩⟩
      · exact .inr ⟨_, hp, .inr ⟨hs, .inr ⟨_, hq, .inr h⟩⟩⟩
  case properties =>
    refine props_err.trans ?_
    simp only [FacetErr, SubErr]
    constructor
    · rintro (h | ⟨p, hp, h | h⟩)
      · exact .inl (.inl h)
      · exact .inl (.inr ⟨p, hp, h⟩)
      · exact .inr ⟨p.1, p.2, hp, h⟩
    · rintro ((h | ⟨p, hp, h⟩) | ⟨k, w, hp, h⟩)
      · exact .inl h
      · exact .inr ⟨p, hp, .inl h⟩
      · exact .inr ⟨_, hp, .inr h⟩
  case items => exact map_eq_err.trans (false_or _).symm.to_iff
  case type => exact asString_err.trans no
  case required => exact asBool_err.trans no
  case discriminatorValue => exact ⟨(fun h => nomatch h), fun h => h.elim False.elim False.elim⟩
  case fileTypes => exact (map_eq_err.trans stringList_err).trans no
  case multipleOf => exact (map_eq_err.trans asFlt_err).trans no
  case minimum | maximum =>
    cases kd <;> first
      | exact (map_eq_err.trans asInt_err).trans no
      | exact (map_eq_err.trans asFlt_err).trans no
  case format =>
    cases kd <;> first
      | exact (map_eq_err.trans asString_err).trans no
      | (refine (map_eq_err.trans ?_).trans no
         simp only [loadDateFormat, FacetErr, if_true]
         cases h : v.isStr <;> simp [@eq_comm _ e])
  all_goals first
    | exact (map_eq_err.trans asString_err).trans no
    | exact (map_eq_err.trans asBool_err).trans no
    | exact (map_eq_err.trans asUint_err).trans no

private theorem entry_ok {X : Xyml} {kd : Kind} {p : Node × Node} :
    FacetOk X kd p.1 p.2 (facetOf kd p) ∧ SubsOk X p.2 (facetOf kd p) ↔ EntryOk X kd p := by
  unfold EntryOk
  refine and_congr_right fun _ => ?_
  cases facetOf kd p <;> simp only [SubsOk, NestedOk, C54_type_accepted]

private theorem assignAll_err {X : Xyml} {ps : List (Node × Node)} {t0 : DT} {kd : Kind} {e : Err}
    (h0 : t0.kind = kd) : assignAll X ps t0 = .err e ↔ ∃ p, Reaches (EntryOk X kd) ps p ∧
      (FacetErr X kd e p.2 (facetOf kd p) ∨ SubErr X e p.2 (facetOf kd p)) := by
  rw [assignAll_eq]
  refine err_pairs (I := fun u : DT => u.kind = kd)
    (fun k v s s' hI h => (assign_kind h).trans hI) ps t0 (fun p _ s hs => ?_)
    (fun p _ s hs => ?_) h0
  · subst hs
    rw [assign_eq]
    unfold DT.step
    exact acc_map.trans ((acc_facet _).trans entry_ok)
  · subst hs
    rw [assign_eq]
    unfold DT.step
    exact map_eq_err.trans (facet_err _)

/-- An include reads the first `type` entry as a string. -/
private theorem include_err {X : Xyml} {ps : List (Node × Node)} {k : Node} {s : String} {e : Err}
    (hf : ps.find? isTypeEntry = some (k, .scalar "!include" s)) :
    assignAll X ps (DT.new .include) = .err e ↔ e = .notString := by
  rw [assignAll_err (kd := .include) rfl]
  have hty : ∀ p, facetOf .include p = if isTypeEntry p then .type else .extra := by
    intro p
    unfold facetOf isTypeEntry
    by_cases h1 : p.1.value = "type"
    · simp [facetNames, h1, facetNamed]
    by_cases h2 : p.1.value = "schema"
    · simp [facetNames, h2]
      rfl
    simp [facetNames, h1, h2, isBasic]
  constructor
  · rintro ⟨p, _, h⟩
    rw [hty] at h
    split at h
    · exact h.elim And.right False.elim
    · exact h.elim False.elim False.elim
  · rintro rfl
    obtain ⟨ht, pre, post, rfl, hpre⟩ := List.find?_eq_some_iff_append.mp hf
    refine ⟨_, ⟨pre, post, rfl, fun q hq => ?_⟩, .inl ?_⟩
    · unfold EntryOk
      rw [hty, if_neg (by simpa using hpre q hq)]
      exact ⟨.inl rfl, trivial⟩
    · rw [hty, if_pos ht]
      exact ⟨rfl, rfl⟩

/-- One level. -/
private theorem hat_map_err {X : Xyml} {ps : List (Node × Node)} {e : Err} :
    (∀ kd, kindOf ps = some kd → (hat X (.map ps) = .err e ↔ ∃ p, Reaches (EntryOk X kd) ps p ∧
      (FacetErr X kd e p.2 (facetOf kd p) ∨ SubErr X e p.2 (facetOf kd p)))) ∧
    (kindOf ps = none → ∃ p, ps.find? isTypeEntry = some p ∧ p.2.isStr = false ∧
      (hat X (.map ps) = .err e ↔ match p.2 with
        | .seq _ _ => e = .multiType
        | .map _ => e = .badTypeKey
        | .scalar t _ => if t = "!include" then e = .notString else e = .badTypeKey)) := by
  obtain ⟨h1, h2⟩ := siftType_spec ps
  constructor
  · intro kd hk
    obtain ⟨t0, h0, hk0⟩ : ∃ t0, siftType ps = .ok t0 ∧ t0.kind = kd := by
      cases hf : ps.find? isTypeEntry with
      | none =>
        refine ⟨_, h2 hf, ?_⟩
        rw [kind_new]
        simpa [kindOf, hf] using hk
      | some e =>
        simp only [kindOf, hf] at hk
        split at hk
        · rename_i he
          refine ⟨typeToKind e.2.value, ?_, ?_⟩
          · rw [h1 e hf, if_pos he]
          · rw [(typeToKind_spec _).1]; exact Option.some.inj hk
        · cases hk
    unfold hat
    rw [h0]
    exact assignAll_err hk0
  · intro hk
    unfold kindOf at hk
    cases hf : ps.find? isTypeEntry with
    | none => rw [hf] at hk; cases hk
    | some p =>
      simp only [hf] at hk
      have hs : p.2.isStr = false := by
        cases h : p.2.isStr with
        | false => rfl
        | true => rw [h] at hk; cases hk
      refine ⟨p, rfl, hs, ?_⟩
      unfold hat
      rw [h1 p hf, if_neg (by simp [hs])]
      obtain ⟨k, v⟩ := p
      cases v with
      | seq t ns => simp [@eq_comm _ e]
      | map qs => simp [@eq_comm _ e]
      | scalar t s =>
        by_cases ht : t = "!include"
        · subst ht
          simpa using include_err hf
        · simp [ht, @eq_comm _ e]

private theorem kind_of_find {ps : List (Node × Node)} {p : Node × Node}
    (hf : ps.find? isTypeEntry = some p) (hs : p.2.isStr = false) : kindOf ps = none := by
  simp [kindOf, hf, hs]

/-- C106: exactly which type definitions are reported as which error. -/
theorem C106_type (X : Xyml) (n : Node) (e : Err) : hat X n = .err e ↔ Rejects X e n := by
  constructor
  · induction hsz : sizeOf n using Nat.strongRecOn generalizing n e with
    | _ N ih =>
      intro h
      cases n with
      | scalar t v =>
        unfold hat at h
        split_ifs at h with h1 h2
        cases h
        exact .scalar h1 h2
      | seq t ns => unfold hat at h; cases h; exact .seq
      | map ps =>
        cases hk : kindOf ps with
        | none =>
          obtain ⟨⟨k, v⟩, hf, hs, hh⟩ := (hat_map_err (X := X) (e := e)).2 hk
          have h := hh.mp h
          cases v with
          | seq t ns => cases h; exact .typeSeq hf
          | map qs => cases h; exact .typeMap hf
          | scalar t s =>
            simp only at h
            split at h
            · rename_i ht
              subst ht h
              exact .typeInclude hf
            · rename_i ht
              subst h
              exact .typeScalar hf (fun h => by subst h; cases hs) ht
        | some kd =>
          obtain ⟨⟨k, v⟩, hr, h⟩ := ((hat_map_err (X := X) (e := e)).1 kd hk).mp h
          rcases h with h | h
          · exact .entry hk hr h
          have hlt : sizeOf v < N := hsz ▸ size_entry (reaches_mem hr)
          have hent : ∀ {w : Node} {p : Node × Node}, p ∈ mapEntries w → sizeOf p.2 < sizeOf w := by
            intro w p hp
            cases w with
            | map ps => exact size_entry hp
            | _ => cases hp
          cases hf : facetOf kd (k, v) <;> rw [hf] at h <;> try exact h.elim
          case properties =>
            obtain ⟨h1, h2⟩ := facetOf_text (s := "properties") hf (by decide) (by decide)
            obtain rfl : kd = .object := by cases kd <;> first | rfl | (revert h2; decide)
            obtain ⟨k', w, h3, h4, h⟩ := h
            exact .inProperty hk hr h1 h3 h4
              (ih _ (Nat.lt_trans (hent (reaches_mem h3)) hlt) w e rfl h)
          case items =>
            obtain ⟨h1, h2⟩ := facetOf_text (s := "items") hf (by decide) (by decide)
            obtain rfl : kd = .array := by cases kd <;> first | rfl | (revert h2; decide)
            exact .inItems hk hr h1 (ih _ hlt v e rfl h)
          case facets =>
            obtain ⟨h1, h6⟩ := facetOf_text (s := "facets") hf (by decide) (by decide)
            obtain ⟨k', w, h2, h3, k'', u, h4, h5, h⟩ := h
            have hb : isBasic kd = false := by
              cases kd <;> first | rfl | (exact absurd h6 (by decide))
            exact .inFacet hk hb hr h1 h2 h3 h4 h5 (ih _ (Nat.lt_trans (hent (reaches_mem h4))
              (Nat.lt_trans (hent (reaches_mem h2)) hlt)) u e rfl h)
  · intro h
    have tys : ∀ {ps : List (Node × Node)} {p : Node × Node} {e : Err},
        ps.find? isTypeEntry = some p → p.2.isStr = false → (hat X (.map ps) = .err e ↔
        match p.2 with
        | .seq _ _ => e = .multiType
        | .map _ => e = .badTypeKey
        | .scalar t _ => if t = "!include" then e = .notString else e = .badTypeKey) := by
      intro ps p e hf hs
      obtain ⟨p', hf', _, h⟩ := (hat_map_err (X := X) (e := e)).2 (kind_of_find hf hs)
      rw [hf] at hf'
      cases hf'
      exact h
    induction h with
    | scalar h1 h2 => unfold hat; rw [if_neg h1, if_neg h2]
    | seq => unfold hat; rfl
    | typeSeq hf => exact (tys hf rfl).mpr rfl
    | typeMap hf => exact (tys hf rfl).mpr rfl
    | typeScalar hf h1 h2 => exact (tys hf (by simp [Node.isStr, h1])).mpr (by simp [h2])
    | typeInclude hf => exact (tys hf rfl).mpr rfl
    | entry hk hr h => exact (hat_map_err.1 _ hk).mpr ⟨_, hr, .inl h⟩
    | inItems hk hr hv _ ih =>
      refine (hat_map_err.1 _ hk).mpr ⟨_, hr, .inr ?_⟩
      rw [facetOf_eq (f := .items) hv (by decide) (by decide)]
      exact ih
    | inProperty hk hr hv h1 h2 _ ih =>
      refine (hat_map_err.1 _ hk).mpr ⟨_, hr, .inr ?_⟩
      rw [facetOf_eq (f := .properties) hv (by decide) (by decide)]
      exact ⟨_, _, h1, h2, ih⟩
    | @inFacet ps kd k v k' w k'' u e hk hb hr hv h1 h2 h3 h4 _ ih =>
      refine (hat_map_err.1 _ hk).mpr ⟨_, hr, .inr ?_⟩
      rw [facetOf_eq (f := .facets) hv
        (by cases kd <;> first | rfl | (exact absurd hb (by decide))) (by decide)]
      exact ⟨_, _, h1, h2, _, _, h3, h4, ih⟩

/-- C106: every type definition is acceptable, makes the parser panic, or is reported as an error;
it is only one of these, and one error only. -/
theorem C106_type_outcome (X : Xyml) (n : Node) :
    (TypeOk X n ∨ (∃ c, Crashes X c n) ∨ ∃ e, Rejects X e n) ∧
    (TypeOk X n → (∀ c, ¬ Crashes X c n) ∧ ∀ e, ¬ Rejects X e n) ∧
    (∀ c e, Crashes X c n → ¬ Rejects X e n) ∧
    (∀ e e', Rejects X e n → Rejects X e' n → e = e') := by
  simp only [← C54_type_accepted, ← C87_type, ← C106_type]
  cases hat X n <;> simp

/-! ### Documents -/

private theorem doc_err {X : Xyml} {n : Node} {e : Err} :
    loadDocumentation X n = .err e ↔ DocErr X e n := by
  refine (err_map_uniform (f := Documentation.assign X) (e0 := .notScalar)
    (Q := fun p => p.1.value = "title" ∨ p.1.value = "content" ∨ X.toScalar p.1 ≠ none)
    (fun p _ s => ?_) (fun p _ s => ?_)).trans ?_
  · unfold Documentation.assign
    by_cases h1 : p.1.value = "title"
    · simp [h1, acc_ok]
    by_cases h2 : p.1.value = "content"
    · simp [h2, acc_ok]
    simp [h1, h2, acc_map, acc_asScalar]
  · unfold Documentation.assign
    by_cases h1 : p.1.value = "title"
    · simp [h1]
    by_cases h2 : p.1.value = "content"
    · simp [h2]
    simp [h1, h2, map_eq_err, asScalar_err]
  · simp only [DocErr, not_or, ne_eq, not_not]

private theorem acc_loadDoc {X : Xyml} {n : Node} : Acc (loadDocumentation X n) ↔ DocOk X n := by
  refine acc_mapForEach (f := Documentation.assign X) (Q := fun p => p.1.value = "title" ∨
    p.1.value = "content" ∨ X.toScalar p.1 ≠ none) fun p _ s => ?_
  unfold Documentation.assign
  by_cases h1 : p.1.value = "title"
  · simp [h1, acc_ok]
  by_cases h2 : p.1.value = "content"
  · simp [h2, acc_ok]
  simp [h1, h2, acc_map, acc_asScalar]

private theorem extra_err {X : Xyml} {k v : Node} {m : OM Scalar Node} {e : Err} :
    (if k.isStr && k.value == "" then .panic .emptyKey
      else (asScalar X k).map fun s => OM.put m s v) = .err e ↔
    k ≠ Node.str "" ∧ X.toScalar k = none ∧ e = .notScalar := by
  by_cases hk : k = Node.str ""
  · subst hk
    simp [Node.str, Node.isStr, Node.value]
  · have : ¬ (k.isStr && k.value == "") = true := fun h => by
      simp only [Bool.and_eq_true, beq_iff_eq] at h
      exact hk (eq_emptyStr h.1 h.2)
    rw [if_neg this]
    simp [hk, map_eq_err, asScalar_err]

private theorem named_err {X : Xyml} {v : Node} {m : OM String DT} {e : Err} :
    loadTypes X v m = .err e ↔ TypesErr X e v := by
  rw [types_err]
  simp only [C106_type, TypesErr]

theorem apiStep_err {X : Xyml} {k v : Node} {s : ApiSection} {e : Err} (x : s.Ty) :
    apiStep X k v s x = .err e ↔ ApiPartErr X e k v s := by
  cases s
  case extra => exact extra_err
  case types => exact named_err
  case title => exact asString_err
  case version | baseUri | description => exact map_eq_err.trans asString_err
  case protocols | securedBy => exact map_eq_err.trans stringList_err
  case mediaType =>
    simp only [apiStep, ApiPartErr]
    cases h : v.isStr with
    | false =>
      simp only [true_and]
      exact map_eq_err.trans stringList_err
    | true => simp
  case documentation =>
    exact err_seqForEach (fun _ _ => acc_map.trans acc_loadDoc)
      (fun _ _ => map_eq_err.trans doc_err)
  case uses => exact strings_err
  case annotations => exact map_eq_err.trans ann_err
  case resources => exact ⟨(fun h => nomatch h), False.elim⟩
  all_goals exact untyped_err

theorem libStep_err {X : Xyml} {k v : Node} {s : LibSection} {e : Err} (x : s.Ty) :
    libStep X k v s x = .err e ↔ LibPartErr X e k v s := by
  cases s
  case extra => exact extra_err
  case types => exact named_err
  case annotations =>
    have load : ∀ m : OM String Ann, (if k.value = "annotationTypes" then loadAnns m v
        else (loadAnn v).map fun a => OM.put m k.value a) = .err e ↔
        LibPartErr X e k v .annotations := by
      intro m
      simp only [LibPartErr]
      by_cases hk : k.value = "annotationTypes"
      · rw [if_pos hk, if_pos hk]
        refine Iff.trans (err_loader (g := loadAnn)) ?_
        simp only [acc_ann, ann_err]
      · rw [if_neg hk, if_neg hk]
        exact map_eq_err.trans ann_err
    exact load x
  case usage => exact map_eq_err.trans asString_err
  case uses => exact strings_err
  all_goals exact untyped_err

/-- C106: exactly which API documents are reported as which error. -/
theorem C106_api (X : Xyml) (n : Node) (e : Err) : parseApi X n = .err e ↔ ApiRejects X e n :=
  err_mapForEach (f := fun k v a => APISpec.assign X k v a)
    (fun p _ s => by rw [api_assign_eq]; exact acc_map.trans (acc_apiStep _))
    (fun p _ s => by rw [api_assign_eq]; exact map_eq_err.trans (apiStep_err _))

/-- C106: exactly which libraries are reported as which error. -/
theorem C106_library (X : Xyml) (o : Option Node) (e : Err) :
    parseLibrary X o = .err e ↔ ∃ n, o = some n ∧ LibRejects X e n := by
  cases o with
  | none => exact ⟨(fun h => nomatch h), fun ⟨_, h, _⟩ => nomatch h⟩
  | some n =>
    refine Iff.trans ?_ (show LibRejects X e n ↔ _ from
      ⟨fun h => ⟨n, rfl, h⟩, fun ⟨_, h, h'⟩ => Option.some.inj h ▸ h'⟩)
    exact err_mapForEach (f := fun k v a => Library.assign X k v a)
      (fun p _ s => by rw [lib_assign_eq]; exact acc_map.trans (acc_libStep _))
      (fun p _ s => by rw [lib_assign_eq]; exact map_eq_err.trans (libStep_err _))

/-- C106: an API document has one outcome: it is acceptable, makes the parser panic, or is reported
as one error. -/
theorem C106_api_outcome (X : Xyml) (n : Node) :
    ((isMap n = true ∧ ∀ p ∈ mapEntries n, ApiPartOk X p.1 p.2 (apiSectionOf p)) ∨
      (∃ c, ApiCrashes X c n) ∨ ∃ e, ApiRejects X e n) ∧
    ((isMap n = true ∧ ∀ p ∈ mapEntries n, ApiPartOk X p.1 p.2 (apiSectionOf p)) →
      (∀ c, ¬ ApiCrashes X c n) ∧ ∀ e, ¬ ApiRejects X e n) ∧
    (∀ c e, ApiCrashes X c n → ¬ ApiRejects X e n) ∧
    (∀ e e', ApiRejects X e n → ApiRejects X e' n → e = e') := by
  simp only [← C55_api_accepted, ← C87_api, ← C106_api]
  cases parseApi X n <;> simp

/-- C106: once an entry of an API document is in error, what follows it does not matter. -/
theorem C106_first (X : Xyml) (pre post post' : List (Node × Node)) (p : Node × Node) (e : Err)
    (hpre : ∀ q ∈ pre, ApiPartOk X q.1 q.2 (apiSectionOf q))
    (hp : ApiPartErr X e p.1 p.2 (apiSectionOf p)) :
    parseApi X (.map (pre ++ p :: post)) = .err e ∧
    parseApi X (.map (pre ++ p :: post)) = parseApi X (.map (pre ++ p :: post')) := by
  have h : ∀ post, parseApi X (.map (pre ++ p :: post)) = .err e := fun post =>
    (C106_api X _ e).mpr (.inr ⟨p, ⟨pre, post, rfl, hpre⟩, hp⟩)
  exact ⟨h post, by rw [h post, h post']⟩

/-- C106: a library is acceptable, makes the parser panic or is rejected, in exactly one way. -/
theorem C106_library_outcome (X : Xyml) (n : Node) :
    ((isMap n = true ∧ ∀ p ∈ mapEntries n, LibPartOk X p.1 p.2 (libSectionOf p)) ∨
      (∃ c, LibCrashes X c n) ∨ ∃ e, LibRejects X e n) ∧
    ((isMap n = true ∧ ∀ p ∈ mapEntries n, LibPartOk X p.1 p.2 (libSectionOf p)) →
      (∀ c, ¬ LibCrashes X c n) ∧ ∀ e, ¬ LibRejects X e n) ∧
    (∀ c e, LibCrashes X c n → ¬ LibRejects X e n) ∧
    (∀ e e', LibRejects X e n → LibRejects X e' n → e = e') := by
  have h1 := C56_library_accepted X (some n)
  have h2 := C87_library X (some n)
  have h3 := C106_library X (some n)
  simp only [Option.some.injEq, forall_eq', exists_eq_left'] at h1 h2 h3
  simp only [← h1, ← h2, ← h3]
  cases parseLibrary X (some n) <;> simp

/-- C106: the same for the entries of a library. -/
theorem C106_library_first (X : Xyml) (pre post post' : List (Node × Node)) (p : Node × Node)
    (e : Err) (hpre : ∀ q ∈ pre, LibPartOk X q.1 q.2 (libSectionOf q))
    (hp : LibPartErr X e p.1 p.2 (libSectionOf p)) :
    parseLibrary X (some (.map (pre ++ p :: post))) = .err e ∧
    parseLibrary X (some (.map (pre ++ p :: post))) =
      parseLibrary X (some (.map (pre ++ p :: post'))) := by
  have h : ∀ post, parseLibrary X (some (.map (pre ++ p :: post))) = .err e := fun post =>
    (C106_library X _ e).mpr ⟨_, rfl, .inr ⟨p, ⟨pre, post, rfl, hpre⟩, hp⟩⟩
  exact ⟨h post, by rw [h post, h post']⟩

/-! ### Concrete cases -/

/-- A type that is a sequence is reported before the display name that stands first, a display name
before a later minimum length. -/
example : Rejects Xyml.std .multiType (.map [(.str "displayName", .map []),
      (.str "type", .seq "!!seq" [.str "string"])]) ∧
    Rejects Xyml.std .notString (.map [(.str "displayName", .map []),
      (.str "minLength", .map [])]) ∧
    Rejects Xyml.std .notInt (.map [(.str "minLength", .map []),
      (.str "displayName", .map [])]) := by
  simp only [← C106_type]
  exact ⟨rfl, rfl, rfl⟩

/-- A format that is no string has an error of its own in a datetime type. -/
example : Rejects Xyml.std .badFormat (.map [(.str "type", .str "datetime"),
      (.str "format", .map [])]) ∧
    Rejects Xyml.std .notString (.map [(.str "type", .str "number"),
      (.str "format", .map [])]) ∧
    Rejects Xyml.std .noExample (.map [(.str "type", .str "any"), (.str "example", .str "x")]) ∧
    Rejects Xyml.std .notString (.map [(.str "displayName", .map []),
      (.str "type", .scalar "!include" "f")]) := by
  simp only [← C106_type]
  exact ⟨rfl, rfl, rfl, rfl⟩

/-- The item type of the second property of a type, and a facet declaration that is no mapping. -/
example : Rejects Xyml.std .badTypeDef (.map [(.str "properties", .map [(.str "a", .str "string"),
      (.str "b", .map [(.str "items", .scalar "!!int" "1")])])]) ∧
    Rejects Xyml.std .notMap (.map [(.str "facets", .map [(.str "a", .map []),
      (.str "b", .str "x")])]) := by
  simp only [← C106_type]
  exact ⟨rfl, rfl⟩

/-- The same document with its two problems in the other order is another error. -/
example : ApiRejects Xyml.std .notSeq (.map [(.str "title", .str "t"),
      (.str "documentation", .str "d"), (.str "types", .str "x")]) ∧
    ApiRejects Xyml.std .notMap (.map [(.str "title", .str "t"),
      (.str "types", .str "x"), (.str "documentation", .str "d")]) ∧
    LibRejects Xyml.std .notString (.map [(.str "annotationTypes",
      .map [(.str "a", .map [(.scalar "!!int" "1", .str "x")])])]) := by
  refine ⟨(C106_api _ _ _).mp rfl, (C106_api _ _ _).mp rfl, ?_⟩
  obtain ⟨n, h, h'⟩ := (C106_library Xyml.std (some (.map [(.str "annotationTypes",
      .map [(.str "a", .map [(.scalar "!!int" "1", .str "x")])])])) .notString).mp rfl
  cases h
  exact h'

/-- An example with two problems, and XML settings with two. -/
example : ExampleErr Xyml.std .integer .notInt (.map [(.str "value", .str "x"),
      (.str "strict", .str "y")]) ∧
    ExampleErr Xyml.std .integer .notBool (.map [(.str "strict", .str "y"),
      (.str "value", .str "x")]) ∧
    XmlErr Xyml.std .notString (.map [(.str "name", .map []), (.str "wrapped", .str "x")]) ∧
    XmlErr Xyml.std .notBool (.map [(.str "wrapped", .str "x"), (.str "name", .map [])]) := by
  simp only [← C106_example, ← C106_xml]
  exact ⟨rfl, rfl, rfl, rfl⟩

/-- The title is no string, whatever follows. -/
example (post post' : List (Node × Node)) :
    parseApi Xyml.std (.map ((.str "version", .str "1") :: (.str "title", .map []) :: post)) =
      parseApi Xyml.std (.map ((.str "version", .str "1") :: (.str "title", .map []) :: post')) :=
  (C106_first Xyml.std [(.str "version", .str "1")] post post' (.str "title", .map []) .notString
    (by
      simp only [List.mem_singleton, forall_eq]
      rfl) ⟨rfl, rfl⟩).2

end Verif.Props
