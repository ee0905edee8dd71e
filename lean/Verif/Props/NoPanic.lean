import Verif.Props.TypeKinds
import Verif.Doc.ApiLemmas
import Verif.Doc.Parsed

/-! # C21: where the parser panics, and that it panics nowhere else -/

namespace Verif.Props
open Verif Verif.Doc Verif.Doc.Spec

/-! ### Vocabulary -/

/-- The definition of a type without facets: nil or an include.  These do not implement
`raml.Property`. -/
inductive DefBasic : Node → Prop where
  | tag (s : String) : DefBasic (.scalar "!include" s)
  | name (s : String) : isBasic (classify s) = true → DefBasic (.str s)
  | map {ps : List (Node × Node)} {kd : Kind} : kindOf ps = some kd → isBasic kd = true →
      DefBasic (.map ps)

/-- The constructs inside a type definition that make the parser panic, at any depth. -/
inductive TypeCause : Crash → Node → Prop where
  /-- an empty key in a definition with facets -/
  | key {ps : List (Node × Node)} {kd : Kind} {v : Node} : kindOf ps = some kd →
      isBasic kd = false → (Node.str "", v) ∈ ps → TypeCause .emptyKey (.map ps)
  /-- an empty key in an example -/
  | inExample {ps qs : List (Node × Node)} {kd : Kind} {k v : Node} : kindOf ps = some kd →
      isBasic kd = false → (k, .map qs) ∈ ps → k.value = "example" → (Node.str "", v) ∈ qs →
      TypeCause .emptyKey (.map ps)
  /-- an empty key in a named example -/
  | inExamples {ps qs rs : List (Node × Node)} {kd : Kind} {k k' v : Node} :
      kindOf ps = some kd → isBasic kd = false → (k, .map qs) ∈ ps → k.value = "examples" →
      (k', .map rs) ∈ qs → (Node.str "", v) ∈ rs → TypeCause .emptyKey (.map ps)
  /-- a property declared nil or as an include -/
  | property {ps qs : List (Node × Node)} {k k' v : Node} : kindOf ps = some .object →
      (k, .map qs) ∈ ps → k.value = "properties" → (k', v) ∈ qs → DefBasic v →
      TypeCause .notProperty (.map ps)
  /-- any of these in a nested definition -/
  | nested {c : Crash} {n sub : Node} : TypePos n sub → TypeCause c sub → TypeCause c n

/-- The constructs that make the parser of an API document panic. -/
inductive ApiCause : Crash → Node → Prop where
  | key {ps : List (Node × Node)} {v : Node} : (Node.str "", v) ∈ ps →
      ApiCause .emptyKey (.map ps)
  | type {ps qs : List (Node × Node)} {c : Crash} {s : String} {k v : Node} :
      s = "types" ∨ s = "schemas" → (Node.str s, .map qs) ∈ ps → (k, v) ∈ qs → TypeCause c v →
      ApiCause c (.map ps)

/-- The constructs that make the parser of a library panic: as for an API document, but the key
of the type section need not be a string. -/
inductive LibCause : Crash → Node → Prop where
  | key {ps : List (Node × Node)} {v : Node} : (Node.str "", v) ∈ ps →
      LibCause .emptyKey (.map ps)
  | type {ps qs : List (Node × Node)} {c : Crash} {k k' v : Node} :
      k.value = "types" ∨ k.value = "schemas" → (k, .map qs) ∈ ps → (k', v) ∈ qs →
      TypeCause c v → LibCause c (.map ps)

/-! ### Loops that panic -/

theorem forPairs_panic {σ : Type} {f : Node → Node → σ → Res σ} {I : σ → Prop} {c : Crash}
    (hI : ∀ k v s s', I s → f k v s = .ok s' → I s') :
    ∀ ps s, I s → forPairs f ps s = .panic c → ∃ p ∈ ps, ∃ s', I s' ∧ f p.1 p.2 s' = .panic c := by
  intro ps
  induction ps with
  | nil => intro s _ h; cases h
  | cons p ps ih =>
    intro s hs h
    rcases Res.bind_eq_panic.mp h with h1 | ⟨s1, h1, h2⟩
    · exact ⟨p, by simp, s, hs, h1⟩
    · obtain ⟨q, hq, s', hs', h3⟩ := ih s1 (hI _ _ _ _ hs h1) h2
      exact ⟨q, by simp [hq], s', hs', h3⟩

theorem mapForEach_panic {σ : Type} {f : Node → Node → σ → Res σ} {c : Crash} {v : Node} {s : σ}
    (h : mapForEach f v s = .panic c) :
    ∃ qs, v = .map qs ∧ ∃ p ∈ qs, ∃ s', f p.1 p.2 s' = .panic c := by
  cases v with
  | map qs =>
    obtain ⟨p, hp, s', _, h'⟩ := forPairs_panic (I := fun _ => True) (fun _ _ _ _ _ _ => trivial)
      qs s trivial h
    exact ⟨qs, rfl, p, hp, s', h'⟩
  | _ => cases h

theorem seqForEach_panic {σ : Type} {f : Node → σ → Res σ} {c : Crash} {v : Node} {s : σ}
    (h : seqForEach f v s = .panic c) : ∃ n s', f n s' = .panic c := by
  cases v with
  | seq t ns =>
    have h : forItems f ns s = .panic c := h
    induction ns generalizing s with
    | nil => cases h
    | cons n ns ih =>
      rcases Res.bind_eq_panic.mp h with h1 | ⟨s1, _, h2⟩
      · exact ⟨n, s, h1⟩
      · exact ih (s := s1) h2 h2
  | _ => cases h

theorem asString_panic {v : Node} {c : Crash} : asString v ≠ .panic c := by
  unfold asString; split <;> exact fun h => nomatch h

theorem asBool_panic {X : Xyml} {v : Node} {c : Crash} : asBool X v ≠ .panic c := by
  unfold asBool; split <;> exact fun h => nomatch h

theorem asInt_panic {X : Xyml} {v : Node} {c : Crash} : asInt X v ≠ .panic c := by
  unfold asInt; split <;> exact fun h => nomatch h

theorem asFlt_panic {X : Xyml} {v : Node} {c : Crash} : asFlt X v ≠ .panic c := by
  unfold asFlt; split <;> exact fun h => nomatch h

theorem asScalar_panic {X : Xyml} {v : Node} {c : Crash} : asScalar X v ≠ .panic c := by
  unfold asScalar; split <;> exact fun h => nomatch h

theorem map_panic {α β : Type} {r : Res α} {f : α → β} {c : Crash} (h : r ≠ .panic c) :
    r.map f ≠ .panic c := fun h' => h (Res.map_eq_panic.mp h')

theorem asUint_panic {X : Xyml} {v : Node} {c : Crash} : asUint X v ≠ .panic c :=
  map_panic asInt_panic

theorem asStringList_panic {v : Node} {c : Crash} : asStringList v ≠ .panic c := fun h => by
  obtain ⟨n, s, h⟩ := seqForEach_panic h
  exact map_panic asString_panic h

theorem loadUntyped_panic {m : OM String Node} {v : Node} {c : Crash} :
    loadUntyped m v ≠ .panic c := fun h => by
  obtain ⟨qs, _, p, _, s, h⟩ := mapForEach_panic h
  exact map_panic asString_panic h

theorem loadStrings_panic {m : OM String String} {v : Node} {c : Crash} :
    loadStrings m v ≠ .panic c := fun h => by
  obtain ⟨qs, _, p, _, s, h⟩ := mapForEach_panic h
  rcases Res.bind_eq_panic.mp h with h | ⟨_, _, h⟩
  · exact asString_panic h
  · exact map_panic asString_panic h

theorem loadAnn_panic {v : Node} {c : Crash} : loadAnn v ≠ .panic c := loadUntyped_panic

theorem loadAnns_panic {m : OM String Ann} {v : Node} {c : Crash} : loadAnns m v ≠ .panic c :=
  fun h => by
  obtain ⟨qs, _, p, _, s, h⟩ := mapForEach_panic h
  rcases Res.bind_eq_panic.mp h with h | ⟨_, _, h⟩
  · exact asString_panic h
  · exact map_panic loadAnn_panic h

theorem loadXML_panic {X : Xyml} {v : Node} {c : Crash} : loadXML X v ≠ .panic c := fun h => by
  obtain ⟨qs, _, p, _, s, h⟩ := mapForEach_panic h
  unfold XML.assign at h
  split_ifs at h
  all_goals first
    | exact map_panic asBool_panic h
    | exact map_panic asString_panic h
    | exact map_panic asScalar_panic h

theorem enumVal_panic {X : Xyml} {kd : Kind} {v : Node} {c : Crash} :
    enumVal X kd v ≠ .panic c := by
  cases kd <;> simp only [enumVal] <;> first
    | exact map_panic asBool_panic
    | exact map_panic asInt_panic
    | exact map_panic asFlt_panic
    | (split <;> exact fun h => nomatch h)
    | exact fun h => nomatch h

theorem loadEnum_panic {X : Xyml} {kd : Kind} {l : Option (List Val)} {v : Node} {c : Crash} :
    loadEnum X kd l v ≠ .panic c := fun h => by
  obtain ⟨n, s, h⟩ := seqForEach_panic h
  exact map_panic enumVal_panic h

theorem exampleVal_panic {X : Xyml} {kd : Kind} {v : Node} {c : Crash} :
    exampleVal X kd v ≠ .panic c := by
  cases kd <;> simp only [exampleVal] <;> first
    | exact map_panic asString_panic
    | exact map_panic asBool_panic
    | exact map_panic asInt_panic
    | exact map_panic asFlt_panic
    | (split <;> exact fun h => nomatch h)
    | exact fun h => nomatch h

theorem eq_emptyStr {k : Node} (h1 : k.isStr = true) (h2 : k.value = "") : k = Node.str "" := by
  cases k with
  | scalar t v =>
    have : t = "!!str" := by simpa [Node.isStr] using h1
    subst this
    have : v = "" := h2
    subst this
    rfl
  | _ => cases h1

theorem Example.assign_panic {X : Xyml} {k v : Node} {e : Example} {c : Crash}
    (h : Example.assign X k v e = .panic c) : k = Node.str "" ∧ c = .emptyKey := by
  unfold Example.assign at h
  split at h
  · exact absurd h (map_panic asScalar_panic)
  · rename_i hs
    cases hc : firstChar k.value with
    | none =>
      rw [hc] at h
      cases h
      exact ⟨eq_emptyStr (by simpa using hs) (firstChar_none.mp hc), rfl⟩
    | some d =>
      rw [hc] at h
      simp only at h
      split_ifs at h
      all_goals first
        | exact absurd h (map_panic loadAnn_panic)
        | exact absurd h (map_panic asString_panic)
        | exact absurd h (map_panic asBool_panic)
        | exact absurd h (map_panic exampleVal_panic)
        | exact absurd h (map_panic asScalar_panic)

theorem Example.unmarshal_panic {X : Xyml} {v : Node} {e : Example} {c : Crash}
    (h : Example.unmarshal X v e = .panic c) :
    ∃ qs w, v = .map qs ∧ (Node.str "", w) ∈ qs ∧ c = .emptyKey := by
  cases v with
  | map qs =>
    obtain ⟨⟨k, w⟩, hp, s', _, h'⟩ := forPairs_panic (I := fun _ => True)
      (fun _ _ _ _ _ _ => trivial) qs e trivial h
    obtain ⟨hk, hc⟩ := Example.assign_panic h'
    have hk : k = _ := hk
    subst hk
    exact ⟨qs, w, rfl, hp, hc⟩
  | _ => exact absurd h (map_panic exampleVal_panic)

theorem loadExample_panic {X : Xyml} {kd : Kind} {v : Node} {c : Crash}
    (h : loadExample X kd v = .panic c) :
    ∃ qs w, v = .map qs ∧ (Node.str "", w) ∈ qs ∧ c = .emptyKey := by
  rcases Res.bind_eq_panic.mp h with h | ⟨e, _, h⟩
  · cases kd <;> cases h
  · exact Example.unmarshal_panic h

theorem loadExamples_panic {X : Xyml} {kd : Kind} {m : OM String Example} {v : Node} {c : Crash}
    (h : loadExamples X kd m v = .panic c) :
    ∃ qs k rs w, v = .map qs ∧ (k, Node.map rs) ∈ qs ∧ (Node.str "", w) ∈ rs ∧ c = .emptyKey := by
  obtain ⟨qs, rfl, ⟨k, w⟩, hp, s, h⟩ := mapForEach_panic h
  rcases Res.bind_eq_panic.mp h with h | ⟨_, _, h⟩
  · exact absurd h asString_panic
  · obtain ⟨rs, u, hw, hm, hc⟩ := Example.unmarshal_panic (Res.map_eq_panic.mp h)
    have hw : w = _ := hw
    subst hw
    exact ⟨qs, k, rs, u, rfl, hp, hm, hc⟩

theorem typeToKind_kind (s : String) : (typeToKind s).kind = classify s := (typeToKind_spec s).1

/-- A definition that is accepted but is no property. -/
theorem defBasic_of_hat {X : Xyml} {v : Node} {t : DT} (h : hat X v = .ok t)
    (hp : t.isProperty = false) : DefBasic v := by
  have hb : isBasic t.kind = true := by
    cases t with
    | basic i _ _ => cases i <;> rfl
    | ext => cases hp
  cases v with
  | scalar tag s =>
    unfold hat at h
    split at h
    · rename_i ht
      subst ht
      cases h
      exact .name s (by rw [← typeToKind_kind]; exact hb)
    · split at h
      · rename_i ht
        subst ht
        exact .tag s
      · cases h
  | seq tag ns => unfold hat at h; cases h
  | map ps => exact .map (C15_kind_of_mapping X ps t h) hb

/-- A nil or include definition, if accepted, is no property. -/
theorem hat_of_defBasic {X : Xyml} {v : Node} (hd : DefBasic v) {t : DT}
    (h : hat X v = .ok t) : t.isProperty = false := by
  have hb : isBasic t.kind = true := by
    cases hd with
    | tag s =>
      unfold hat at h
      rw [if_neg (by decide), if_pos rfl] at h
      cases h
      rfl
    | name s hs =>
      unfold Node.str hat at h
      rw [if_pos rfl] at h
      cases h
      rw [typeToKind_kind]
      exact hs
    | @map ps kd hk hb =>
      have := C15_kind_of_mapping X ps t h
      rw [hk] at this
      cases this
      exact hb
  cases t with
  | basic => rfl
  | ext h b _ _ _ => cases b <;> cases hb

/-! ### Type definitions -/

theorem siftType_panic {ps : List (Node × Node)} {c : Crash} : siftType ps ≠ .panic c := by
  intro h
  obtain ⟨h1, h2⟩ := siftType_spec ps
  cases hf : ps.find? isTypeEntry with
  | none => rw [h2 hf] at h; cases h
  | some e =>
    rw [h1 e hf] at h
    split_ifs at h
    cases hv : e.2 <;> rw [hv] at h <;> simp only at h
    · split_ifs at h
    · cases h
    · cases h

/-- Unless the chosen kind is nil or include, the specification names the chosen kind. -/
theorem siftType_kindOf {ps : List (Node × Node)} {t : DT} (h : siftType ps = .ok t)
    (hb : isBasic t.kind = false) : kindOf ps = some t.kind := by
  obtain ⟨h1, h2⟩ := siftType_spec ps
  cases hf : ps.find? isTypeEntry with
  | none =>
    rw [h2 hf] at h
    cases h
    simp only [kindOf, hf, kind_new]
  | some e =>
    rw [h1 e hf] at h
    simp only [kindOf, hf]
    by_cases hs : e.2.isStr = true
    · rw [if_pos hs] at h ⊢
      cases h
      rw [typeToKind_kind]
    · rw [if_neg hs] at h
      cases hv : e.2 <;> rw [hv] at h <;> simp only at h
      · split_ifs at h
        cases h
        cases hb
      · cases h
      · cases h

/-- The facets with a single key text, and that text. -/
theorem facetOf_text {kd : Kind} {p : Node × Node} {f : Facet} {s : String}
    (h : facetOf kd p = f) (h2 : facetNamed.lookup s = some f) (ht : f ≠ .type) :
    p.1.value = s ∧ s ∈ facetNames kd := by
  have hinj : ∀ a ∈ facetNamed, ∀ b ∈ facetNamed, a.2 = b.2 → a.2 ≠ .type → a.1 = b.1 := by
    decide
  have hne : ∀ a ∈ facetNamed, a.2 ≠ .extra ∧ a.2 ≠ .annotations := by decide
  have hf := hne _ (mem_of_lookup h2)
  unfold facetOf at h
  split at h
  · rename_i hc
    have hc : p.1.value ∈ facetNames kd := by simpa using hc
    cases hl : facetNamed.lookup p.1.value with
    | none => rw [hl] at h; exact absurd h.symm hf.1
    | some g =>
      rw [hl] at h
      have h : g = f := h
      subst h
      have := hinj _ (mem_of_lookup hl) _ (mem_of_lookup h2) rfl ht
      have : p.1.value = s := this
      exact ⟨this, this ▸ hc⟩
  · split at h
    · exact absurd h.symm hf.2
    · exact absurd h.symm hf.1

theorem loadTypes_panic {X : Xyml} {v : Node} {m : OM String DT} {c : Crash}
    (h : loadTypes X v m = .panic c) :
    ∃ qs k w, v = .map qs ∧ (k, w) ∈ qs ∧ hat X w = .panic c := by
  rw [loadTypes_eq] at h
  obtain ⟨qs, rfl, ⟨k, w⟩, hw, s1, h⟩ := mapForEach_panic h
  have h : loadType X (k, w) s1 = .panic c := h
  unfold loadType at h
  rcases Res.bind_eq_panic.mp h with h1 | ⟨_, _, h1⟩
  · exact absurd h1 asString_panic
  rcases Res.bind_eq_panic.mp h1 with h2 | ⟨_, _, h2⟩
  · exact ⟨qs, k, w, rfl, hw, h2⟩
  · cases h2

private theorem entry_panic {X : Xyml} {ps : List (Node × Node)} {kd : Kind} {c : Crash}
    {p : Node × Node} (hp : p ∈ ps) (hk : isBasic kd = false → kindOf ps = some kd)
    (ih : ∀ m, sizeOf m < sizeOf (Node.map ps) → ∀ c, hat X m = .panic c → TypeCause c m)
    {s : DT} (hs : s.kind = kd) (h : assign X p s = .panic c) : TypeCause c (.map ps) := by
  obtain ⟨k, v⟩ := p
  rw [assign_eq] at h
  have h := Res.map_eq_panic.mp h
  rw [hs] at h
  generalize hf : facetOf kd (k, v) = f at h
  have hsz := size_entry hp
  cases f with
  | extra =>
    simp only [facetStep] at h
    split at h
    · rename_i hc
      cases h
      simp only [Bool.and_eq_true, Bool.not_eq_true', beq_iff_eq] at hc
      have := eq_emptyStr hc.1.2 hc.2
      subst this
      exact .key (hk hc.1.1) hc.1.1 hp
    · cases h
  | «example» =>
    obtain ⟨qs, w, rfl, hw, rfl⟩ := loadExample_panic (Res.map_eq_panic.mp h)
    obtain ⟨h1, h2⟩ := facetOf_text (s := "example") hf (by decide) (by decide)
    have hb : isBasic kd = false := by cases kd <;> first | rfl | (revert h2; decide)
    exact .inExample (hk hb) hb hp h1 hw
  | examples =>
    obtain ⟨qs, k', rs, w, rfl, hk', hw, rfl⟩ := loadExamples_panic h
    obtain ⟨h1, h2⟩ := facetOf_text (s := "examples") hf (by decide) (by decide)
    have hb : isBasic kd = false := by cases kd <;> first | rfl | (revert h2; decide)
    exact .inExamples (hk hb) hb hp h1 hk' hw
  | facets =>
    obtain ⟨h1, h2⟩ := facetOf_text (s := "facets") hf (by decide) (by decide)
    have hb : isBasic kd = false := by cases kd <;> first | rfl | (revert h2; decide)
    have h := (loadFacets_eq X _ _).symm.trans h
    obtain ⟨qs, rfl, ⟨k', w⟩, hw, s1, h⟩ := mapForEach_panic h
    have h : loadFacet X (k', w) s1 = .panic c := h
    unfold loadFacet at h
    rcases Res.bind_eq_panic.mp h with h | ⟨_, _, h⟩
    · exact absurd h asString_panic
    rcases Res.bind_eq_panic.mp h with h | ⟨_, _, h⟩
    · obtain ⟨rs, k'', u, rfl, hu, h⟩ := loadTypes_panic h
      refine .nested (.facet (hk hb) hb hp h1 hw hu) (ih u ?_ c h)
      exact Nat.lt_trans (size_entry hu) (Nat.lt_trans (size_entry hw) hsz)
    · cases h
  | properties =>
    obtain ⟨h1, h2⟩ := facetOf_text (s := "properties") hf (by decide) (by decide)
    have hkd : kd = .object := by cases kd <;> first | rfl | (revert h2; decide)
    subst hkd
    have h := (loadProps_eq X _ _).symm.trans h
    obtain ⟨qs, rfl, ⟨k', w⟩, hw, s1, h⟩ := mapForEach_panic h
    have h : loadProp X (k', w) s1 = .panic c := h
    unfold loadProp at h
    rcases Res.bind_eq_panic.mp h with h | ⟨_, _, h⟩
    · exact absurd h asString_panic
    rcases Res.bind_eq_panic.mp h with h | ⟨t, ht, h⟩
    · refine .nested (.property (hk rfl) hp h1 hw) (ih w ?_ c h)
      exact Nat.lt_trans (size_entry hw) hsz
    · split at h
      · cases h
      · rename_i hpr
        cases h
        exact .property (hk rfl) hp h1 hw (defBasic_of_hat ht (by simpa using hpr))
  | items =>
    obtain ⟨h1, h2⟩ := facetOf_text (s := "items") hf (by decide) (by decide)
    have hkd : kd = .array := by cases kd <;> first | rfl | (revert h2; decide)
    subst hkd
    exact .nested (.items (hk rfl) hp h1) (ih v hsz c (Res.map_eq_panic.mp h))
  | minimum =>
    simp only [facetStep] at h
    split at h
    · exact absurd h (map_panic asInt_panic)
    · exact absurd h (map_panic asFlt_panic)
  | maximum =>
    simp only [facetStep] at h
    split at h
    · exact absurd h (map_panic asInt_panic)
    · exact absurd h (map_panic asFlt_panic)
  | format =>
    simp only [facetStep] at h
    split at h
    · refine absurd h (map_panic ?_)
      unfold loadDateFormat
      split <;> exact fun h => nomatch h
    · exact absurd h (map_panic asString_panic)
  | type => exact absurd h asString_panic
  | required => exact absurd h asBool_panic
  | enum => exact absurd h loadEnum_panic
  | xml => exact absurd h (map_panic loadXML_panic)
  | annotations => exact absurd h (map_panic loadAnn_panic)
  | discriminatorValue => cases h
  | fileTypes => exact absurd h (map_panic asStringList_panic)
  | displayName | description | pattern | discriminator => exact absurd h (map_panic asString_panic)
  | uniqueItems | additionalProperties => exact absurd h (map_panic asBool_panic)
  | minLength | maxLength | minItems | maxItems | minProperties | maxProperties =>
    exact absurd h (map_panic asUint_panic)
  | multipleOf => exact absurd h (map_panic asFlt_panic)

/-- C21: a type definition that makes the parser panic contains one of the listed constructs. -/
theorem C21_type_panic_cause (X : Xyml) (n : Node) : ∀ c, hat X n = .panic c → TypeCause c n := by
  induction hsz : sizeOf n using Nat.strongRecOn generalizing n with
  | _ N ih =>
    intro c h
    cases n with
    | scalar t v =>
      unfold hat at h
      split_ifs at h
    | seq t ns => unfold hat at h; cases h
    | map ps =>
      unfold hat at h
      rcases Res.bind_eq_panic.mp h with h | ⟨t0, h0, h⟩
      · exact absurd h siftType_panic
      · rw [assignAll_eq] at h
        obtain ⟨p, hp, s, hs, h⟩ := forPairs_panic (I := fun u => u.kind = t0.kind)
          (fun k v s s' hI h => (assign_kind h).trans hI) ps t0 rfl h
        exact entry_panic hp (siftType_kindOf h0)
          (fun m hm c hc => ih _ (hsz ▸ hm) m rfl c hc) hs h

/-- A panic and its cause. -/
example (X : Xyml) : hat X (.map [(.str "properties", .map [(.str "a", .str "nil")])]) = .panic .notProperty ∧
    TypeCause .notProperty (.map [(.str "properties", .map [(.str "a", .str "nil")])]) :=
  ⟨rfl, C21_type_panic_cause X _ _ rfl⟩

/-- C21: a type definition without those constructs never panics. -/
theorem C21_type_no_panic (X : Xyml) (n : Node) (h : ∀ c, ¬ TypeCause c n) :
    (∃ t, hat X n = .ok t) ∨ ∃ e, hat X n = .err e := by
  cases hn : hat X n with
  | ok t => exact .inl ⟨t, rfl⟩
  | err e => exact .inr ⟨e, rfl⟩
  | panic c => exact absurd (C21_type_panic_cause X n c hn) (h c)

theorem Example.unmarshal_emptyKey {X : Xyml} {qs : List (Node × Node)} {v : Node}
    (h : (Node.str "", v) ∈ qs) (e : Example) : ∀ t, Example.unmarshal X (.map qs) e ≠ .ok t := by
  intro t ht
  obtain ⟨s, s', h'⟩ := mapForEach_ok_mem (f := Example.assign X) (ps := qs) ht _ h
  cases h'

/-- C21: a definition with one of the listed constructs is never accepted: the parser panics or
reports another problem first. -/
theorem C21_type_cause_not_ok (X : Xyml) (c : Crash) (n : Node) (h : TypeCause c n) :
    ∀ t, hat X n ≠ .ok t := by
  induction h with
  | @key ps kd v hk hb hm =>
    intro t ht
    have hf : facetOf kd (Node.str "", v) = .extra := by cases kd <;> rfl
    obtain ⟨s, x, _, hx⟩ := hat_map_step (f := .extra) ht hk hm hf
    simp only [facetStep] at hx
    rw [if_pos (by rw [hb]; rfl)] at hx
    cases hx
  | @inExample ps qs kd k v hk hb hm hv hm' =>
    intro t ht
    obtain ⟨s, x, _, hx⟩ := hat_map_step (f := .example) ht hk hm
      (facetOf_eq hv (by cases kd <;> first | rfl | (exact absurd hb (by decide))) (by decide))
    obtain ⟨e, he, _⟩ := Res.map_eq_ok.mp hx
    obtain ⟨e0, _, he⟩ := Res.bind_eq_ok.mp he
    exact Example.unmarshal_emptyKey hm' e0 e he
  | @inExamples ps qs rs kd k k' v hk hb hm hv hm' hm'' =>
    intro t ht
    obtain ⟨s, x, _, hx⟩ := hat_map_step (f := .examples) ht hk hm
      (facetOf_eq hv (by cases kd <;> first | rfl | (exact absurd hb (by decide))) (by decide))
    obtain ⟨m1, m2, h2⟩ := mapForEach_ok_mem (ps := qs) hx _ hm'
    obtain ⟨_, _, h2⟩ := Res.bind_eq_ok.mp h2
    obtain ⟨e, he, _⟩ := Res.map_eq_ok.mp h2
    exact Example.unmarshal_emptyKey hm'' _ e he
  | @property ps qs k k' v hk hm hv hm' hd =>
    intro t ht
    obtain ⟨s, x, _, hx⟩ := hat_map_step (f := .properties) ht hk hm
      (facetOf_eq hv (by decide) (by decide))
    have hx := (loadProps_eq X _ _).symm.trans hx
    obtain ⟨_, _, h2⟩ := mapForEach_ok_mem hx _ hm'
    obtain ⟨u, hu, _, hpr, _⟩ := loadProp_ok h2
    rw [hat_of_defBasic hd hu] at hpr
    cases hpr
  | nested hp _ ih =>
    intro t ht
    obtain ⟨u, hu⟩ := C16_nested X _ _ hp t ht
    exact ih u hu

example (X : Xyml) (v w : Node) (t : DT) : hat X (.map [(.str "type", .str "integer"), (.str "minimum", v),
    (.str "example", .map [(.str "", w)])]) ≠ .ok t :=
  C21_type_cause_not_ok X _ _ (.inExample (k := .str "example") (kd := .integer) (by rfl) rfl
    (.tail _ (.tail _ (.head _))) rfl (.head _)) t

/-! ### Definitions that do panic -/

private theorem siftType_append {pre post : List (Node × Node)}
    (h : ∀ p ∈ post, p.1.value ∉ ["type", "schema", "properties", "items"]) :
    siftType (pre ++ post) = siftType pre := by
  have hn : post.find? isTypeEntry = none := by
    rw [List.find?_eq_none]
    intro p hp
    have := h p hp
    simp only [List.mem_cons, List.not_mem_nil, or_false, not_or] at this
    simp [isTypeEntry, this]
  have hi : impliedKind (pre ++ post) = impliedKind pre := by
    have h1 : (post.any fun p => p.1.value == "properties") = false := by
      rw [List.any_eq_false]
      intro p hp
      have := h p hp
      simp only [List.mem_cons, List.not_mem_nil, or_false, not_or] at this
      simp [this]
    have h2 : (post.any fun p => p.1.value == "items") = false := by
      rw [List.any_eq_false]
      intro p hp
      have := h p hp
      simp only [List.mem_cons, List.not_mem_nil, or_false, not_or] at this
      simp [this]
    simp only [impliedKind, List.any_append, h1, h2, Bool.or_false]
  obtain ⟨a1, a2⟩ := siftType_spec (pre ++ post)
  obtain ⟨b1, b2⟩ := siftType_spec pre
  cases hf : pre.find? isTypeEntry with
  | none =>
    rw [b2 hf, a2 (by rw [List.find?_append, hf, hn]; rfl), hi]
  | some e =>
    rw [b1 e hf, a1 e (by rw [List.find?_append, hf]; rfl)]

/-- C21: an empty key after entries that make an acceptable definition with facets panics, whatever
its value and whatever follows (as long as the rest does not change the kind). -/
theorem C21_type_empty_key (X : Xyml) (pre post : List (Node × Node)) (v : Node) (t : DT)
    (h : hat X (.map pre) = .ok t) (hb : isBasic t.kind = false)
    (hpost : ∀ p ∈ post, p.1.value ∉ ["type", "schema", "properties", "items"]) :
    hat X (.map (pre ++ (Node.str "", v) :: post)) = .panic .emptyKey := by
  obtain ⟨t0, h0, _, _, h1, _⟩ := hat_map_ok h
  unfold hat
  rw [siftType_append (post := (Node.str "", v) :: post), h0, Res.bind_ok, assignAll_append, h1,
    Res.bind_ok]
  · unfold assignAll
    have hf : facetOf t.kind (Node.str "", v) = .extra := by cases t.kind <;> rfl
    rw [assign_eq, hf]
    show ((facetStep X t.kind (Node.str "") v .extra _).map _).bind _ = _
    simp only [facetStep]
    rw [if_pos (by rw [hb]; rfl)]
    rfl
  · intro p hp
    rcases List.mem_cons.mp hp with rfl | hp
    · show "" ∉ _
      decide
    · exact hpost p hp

/-- A one-entry definition and an empty key with an arbitrary value. -/
example (X : Xyml) (v : Node) :
    hat X (.map [(.str "type", .str "integer"), (.str "", v)]) = .panic .emptyKey :=
  C21_type_empty_key X [(.str "type", .str "integer")] [] v _ rfl rfl (fun _ h => (nomatch h))

/-- C21: a property declared nil or as an include panics, after any acceptable properties and
before anything. -/
theorem C21_property_panics (X : Xyml) (pre post : List (Node × Node)) (k : String) (v : Node)
    (t u : DT) (h : hat X (.map [(.str "properties", .map pre)]) = .ok t)
    (hv : hat X v = .ok u) (hd : DefBasic v) :
    hat X (.map [(.str "properties", .map (pre ++ (Node.str k, v) :: post))]) =
      .panic .notProperty := by
  obtain ⟨t0, h0, _, _, h1, _⟩ := hat_map_ok h
  have e1 : ∀ qs : List (Node × Node), siftType [(.str "properties", .map qs)] =
      .ok (DT.new .object) := fun _ => rfl
  rw [e1] at h0
  cases h0
  have e2 : ∀ qs : List (Node × Node), assignAll X [(.str "properties", .map qs)] (DT.new .object)
      = ((loadPropsL X qs (OM.empty false)).map fun m => (DT.new .object).setProps m) := by
    intro qs
    unfold assignAll
    rw [assign_eq]
    have hf : facetOf (DT.new .object).kind (Node.str "properties", .map qs) = .properties := rfl
    rw [hf, step_properties]
    unfold loadProps
    have : properties (DT.new .object) = OM.empty false := rfl
    rw [this]
    cases loadPropsL X qs (OM.empty false) <;> rfl
  rw [e2] at h1
  obtain ⟨m, hm, _⟩ := Res.map_eq_ok.mp h1
  unfold hat
  rw [e1, Res.bind_ok, e2, loadPropsL_eq, forPairs_append, ← loadPropsL_eq, hm, Res.bind_ok]
  unfold forPairs loadProp
  rw [hv]
  simp only [asString, Node.str, Node.isStr, beq_self_eq_true, if_true, Res.bind_ok,
    hat_of_defBasic hd hv]
  rfl

/-- A nil property after an integer one. -/
example (X : Xyml) : hat X (.map [(.str "properties", .map [(.str "a", .str "integer"),
    (.str "b", .str "nil")])]) = .panic .notProperty :=
  C21_property_panics X [(.str "a", .str "integer")] [] "b" (.str "nil") _ _ rfl rfl
    (.name _ (by decide))

/-- An optional included property. -/
example (X : Xyml) : hat X (.map [(.str "properties", .map [(.str "b?",
    .scalar "!include" "b.raml")])]) = .panic .notProperty :=
  C21_property_panics X [] [] "b?" (.scalar "!include" "b.raml") _ _ rfl rfl (.tag _)

/-- C21: an empty key in an example panics, after any entries an example accepts. -/
theorem C21_example_panics (X : Xyml) (pre post : List (Node × Node)) (v : Node) (e : Example)
    (e0 : Example) (h : e0.unmarshal X (.map pre) = .ok e) :
    e0.unmarshal X (.map (pre ++ (Node.str "", v) :: post)) = .panic .emptyKey := by
  unfold Example.unmarshal at h ⊢
  simp only at h ⊢
  rw [forPairs_append, h]
  rfl

/-- An example with a description and an empty key. -/
example (X : Xyml) (v : Node) : (Example.new .string).unmarshal X
    (.map [(.str "description", .str "d"), (.str "", v)]) = .panic .emptyKey :=
  C21_example_panics X [(.str "description", .str "d")] [] v _ _ rfl

/-! ### API documents and libraries -/

/-- C21: an API document that makes the parser panic contains one of the listed constructs. -/
theorem C21_api_panic_cause (X : Xyml) (n : Node) (c : Crash) (h : parseApi X n = .panic c) :
    ApiCause c n := by
  obtain ⟨ps, rfl, ⟨k, v⟩, hp, a, h⟩ := mapForEach_panic h
  have h : a.assign X k v = .panic c := h
  rw [api_assign_eq] at h
  have h := Res.map_eq_panic.mp h
  generalize hsec : apiSectionOf (k, v) = s at h
  cases s with
  | extra =>
    simp only [apiStep] at h
    split at h
    · rename_i hc
      cases h
      simp only [Bool.and_eq_true, beq_iff_eq] at hc
      have := eq_emptyStr hc.1 hc.2
      subst this
      exact .key hp
    · exact absurd h (map_panic asScalar_panic)
  | types =>
    obtain ⟨qs, k', w, rfl, hw, hpan⟩ := loadTypes_panic h
    have hk : ∃ s, (s = "types" ∨ s = "schemas") ∧ k = Node.str s := by
      unfold apiSectionOf at hsec
      split at hsec
      · cases hsec
      split at hsec
      · cases hsec
      split at hsec
      · rename_i hs
        cases hl : apiKeys.lookup k.value with
        | none => simp only [hl] at hsec; cases hsec
        | some x =>
          simp only [hl, Option.getD_some] at hsec
          subst hsec
          have hall : ∀ e ∈ apiKeys, e.2 = .types → e.1 = "types" ∨ e.1 = "schemas" := by decide
          refine ⟨k.value, hall _ (lookup_some_mem hl) rfl, ?_⟩
          cases k with
          | scalar t x =>
            have : t = "!!str" := by simpa [Node.isStr] using hs
            subst this
            rfl
          | _ => cases hs
      · cases hsec
    obtain ⟨s, hs, rfl⟩ := hk
    exact .type hs hp hw (C21_type_panic_cause X w c hpan)
  | title => exact absurd h asString_panic
  | version | baseUri | description => exact absurd h (map_panic asString_panic)
  | protocols | securedBy => exact absurd h (map_panic asStringList_panic)
  | mediaType =>
    simp only [apiStep] at h
    split at h
    · cases h
    · exact absurd h (map_panic asStringList_panic)
  | documentation =>
    obtain ⟨d, l, h⟩ := seqForEach_panic h
    refine absurd h (map_panic ?_)
    intro h
    obtain ⟨qs, _, ⟨k', w⟩, hw, s1, h⟩ := mapForEach_panic h
    unfold Documentation.assign at h
    split_ifs at h
    exact map_panic asScalar_panic h
  | uses => exact absurd h loadStrings_panic
  | securitySchemes | baseUriParameters | traits | annotationTypes | resourceTypes =>
    exact absurd h loadUntyped_panic
  | annotations => exact absurd h (map_panic loadAnn_panic)
  | resources => cases h

example (X : Xyml) (v : Node) : parseApi X (.map [(.str "title", .str "t"), (.str "", v)]) = .panic .emptyKey ∧
    ApiCause .emptyKey (.map [(.str "title", .str "t"), (.str "", v)]) :=
  ⟨rfl, C21_api_panic_cause X _ _ rfl⟩

/-- C21: an API document without those constructs never panics. -/
theorem C21_api_no_panic (X : Xyml) (n : Node) (h : ∀ c, ¬ ApiCause c n) :
    (∃ t, parseApi X n = .ok t) ∨ ∃ e, parseApi X n = .err e := by
  cases hn : parseApi X n with
  | ok t => exact .inl ⟨t, rfl⟩
  | err e => exact .inr ⟨e, rfl⟩
  | panic c => exact absurd (C21_api_panic_cause X n c hn) (h c)

private theorem loadTypes_cause {X : Xyml} {qs : List (Node × Node)} {k v : Node} {c : Crash}
    (hm : (k, v) ∈ qs) (hc : TypeCause c v) (m m' : OM String DT) :
    loadTypes X (.map qs) m ≠ .ok m' := by
  intro h
  rw [loadTypes_eq] at h
  obtain ⟨_, _, h4⟩ := mapForEach_ok_mem h _ hm
  obtain ⟨u, hu, _⟩ := loadType_ok h4
  exact C21_type_cause_not_ok X c v hc u hu

private theorem apiSectionOf_types (v : Node) : apiSectionOf (Node.str "types", v) = .types := by
  have h : apiSectionOf (Node.str "types", .map []) = .types := by decide
  exact h

private theorem apiSectionOf_schemas (v : Node) :
    apiSectionOf (Node.str "schemas", v) = .types := by
  have h : apiSectionOf (Node.str "schemas", .map []) = .types := by decide
  exact h

/-- C21: an API document with one of the listed constructs is never accepted. -/
theorem C21_api_cause_not_ok (X : Xyml) (c : Crash) (n : Node) (h : ApiCause c n) :
    ∀ a, parseApi X n ≠ .ok a := by
  intro a ha
  cases h with
  | key hm =>
    obtain ⟨x, y, h⟩ := api_part_mem ha hm
    cases h
  | @type ps qs _ s k v hs hm hm' hc =>
    obtain ⟨x, y, h⟩ := api_part_mem ha hm
    have hsec : apiSectionOf (Node.str s, .map qs) = .types := by
      rcases hs with rfl | rfl
      · exact apiSectionOf_types _
      · exact apiSectionOf_schemas _
    have h : ∃ x y, apiStep X (Node.str s) (.map qs) .types x = .ok y := by
      rw [← hsec]; exact ⟨x, y, h⟩
    obtain ⟨x, y, h⟩ := h
    exact loadTypes_cause hm' hc _ _ h

example (X : Xyml) (v : Node) (a : APISpec) : parseApi X (.map [(.str "version", v), (.str "schemas",
    .map [(.str "T", .map [(.str "properties", .map [(.str "p?", .str "nil")])])])]) ≠ .ok a :=
  C21_api_cause_not_ok X _ _ (.type (.inr rfl) (.tail _ (.head _)) (.head _)
    (.property (k := .str "properties") (by rfl) (.head _) rfl (.head _) (.name _ (by decide)))) a

/-- C21: an empty key after the entries of an acceptable API document panics, whatever follows. -/
theorem C21_api_empty_key (X : Xyml) (pre post : List (Node × Node)) (v : Node) (a : APISpec)
    (h : parseApi X (.map pre) = .ok a) :
    parseApi X (.map (pre ++ (Node.str "", v) :: post)) = .panic .emptyKey := by
  show forPairs (APISpec.assign X) (pre ++ (Node.str "", v) :: post) APISpec.new = _
  rw [forPairs_append, show forPairs (APISpec.assign X) pre APISpec.new = .ok a from h]
  rfl

example (X : Xyml) (v : Node) (post : List (Node × Node)) :
    parseApi X (.map ([(.str "title", .str "t"), (.str "/r", .map [])] ++ (.str "", v) :: post)) =
      .panic .emptyKey :=
  C21_api_empty_key X _ post v _ rfl

/-- C21: a panic in one type definition is a panic of the document, after acceptable entries. -/
theorem C21_api_type_panics (X : Xyml) (pre post qs : List (Node × Node)) (k : String) (v : Node)
    (a : APISpec) (c : Crash) (h : parseApi X (.map pre) = .ok a) (hv : hat X v = .panic c) :
    parseApi X (.map (pre ++ (Node.str "types", .map ((Node.str k, v) :: qs)) :: post)) =
      .panic c := by
  show forPairs (APISpec.assign X) (pre ++ _ :: post) APISpec.new = _
  rw [forPairs_append, show forPairs (APISpec.assign X) pre APISpec.new = .ok a from h,
    Res.bind_ok]
  unfold forPairs
  rw [api_assign_eq]
  have hsec : apiSectionOf (Node.str "types", .map ((Node.str k, v) :: qs)) = .types :=
    apiSectionOf_types _
  rw [hsec]
  have : apiStep X (Node.str "types") (.map ((Node.str k, v) :: qs)) .types (apiGet .types a) =
      .panic c := by
    have h : ∀ m, loadTypes X (.map ((Node.str k, v) :: qs)) m = .panic c := by
      intro m
      unfold loadTypes loadTypesL loadType
      rw [hv]
      rfl
    exact h _
  rw [this]
  rfl

/-- A document with a title and a type whose second property is nil: the whole parse panics. -/
example (X : Xyml) : parseApi X (.map [(.str "title", .str "t"), (.str "types", .map [(.str "A",
    .map [(.str "properties", .map [(.str "a", .str "string"), (.str "b", .str "nil")])])])]) =
    .panic .notProperty :=
  C21_api_type_panics X [(.str "title", .str "t")] [] [] "A" _ _ _ rfl
    (C21_property_panics X [(.str "a", .str "string")] [] "b" (.str "nil") _ _ rfl rfl
      (.name _ (by decide)))

/-- C21: a library that makes the parser panic contains one of the listed constructs. -/
theorem C21_library_panic_cause (X : Xyml) (o : Option Node) (c : Crash)
    (h : parseLibrary X o = .panic c) : ∃ n, o = some n ∧ LibCause c n := by
  cases o with
  | none => cases h
  | some n =>
  refine ⟨n, rfl, ?_⟩
  obtain ⟨ps, rfl, ⟨k, v⟩, hp, a, h⟩ := mapForEach_panic h
  have h : a.assign X k v = .panic c := h
  rw [lib_assign_eq] at h
  have h := Res.map_eq_panic.mp h
  generalize hsec : libSectionOf (k, v) = s at h
  cases s with
  | extra =>
    simp only [libStep] at h
    split at h
    · rename_i hc
      cases h
      simp only [Bool.and_eq_true, beq_iff_eq] at hc
      have := eq_emptyStr hc.1 hc.2
      subst this
      exact .key hp
    · exact absurd h (map_panic asScalar_panic)
  | types =>
    obtain ⟨qs, k', w, rfl, hw, h⟩ := loadTypes_panic h
    have hk : k.value = "types" ∨ k.value = "schemas" := by
      unfold libSectionOf at hsec
      cases hl : libKeys.lookup k.value with
      | none =>
        simp only [hl] at hsec
        split at hsec <;> cases hsec
      | some x =>
        simp only [hl] at hsec
        subst hsec
        have hall : ∀ e ∈ libKeys, e.2 = .types → e.1 = "types" ∨ e.1 = "schemas" := by decide
        exact hall _ (lookup_some_mem hl) rfl
    exact .type hk hp hw (C21_type_panic_cause X w c h)
  | annotations =>
    by_cases hk : k.value = "annotationTypes"
    · exact absurd ((if_pos hk).symm.trans h) loadAnns_panic
    · exact absurd ((if_neg hk).symm.trans h) (map_panic loadAnn_panic)
  | usage => exact absurd h (map_panic asString_panic)
  | uses => exact absurd h loadStrings_panic
  | resourceTypes | traits | securitySchemes => exact absurd h loadUntyped_panic

example (X : Xyml) (v : Node) : ∃ n, some (Node.map [(.str "usage", .str "u"), (.str "", v)]) = some n ∧
    LibCause .emptyKey n :=
  C21_library_panic_cause X _ _ rfl

/-- C21: a library without those constructs never panics. -/
theorem C21_library_no_panic (X : Xyml) (o : Option Node) (h : ∀ n c, o = some n → ¬ LibCause c n) :
    (∃ t, parseLibrary X o = .ok t) ∨ ∃ e, parseLibrary X o = .err e := by
  cases hn : parseLibrary X o with
  | ok t => exact .inl ⟨t, rfl⟩
  | err e => exact .inr ⟨e, rfl⟩
  | panic c =>
    obtain ⟨n, ho, hc⟩ := C21_library_panic_cause X o c hn
    exact absurd hc (h n c ho)

/-- C21: a library with one of the listed constructs is never accepted. -/
theorem C21_library_cause_not_ok (X : Xyml) (c : Crash) (n : Node) (h : LibCause c n) :
    ∀ l, parseLibrary X (some n) ≠ .ok l := by
  intro l hl
  cases h with
  | key hm =>
    obtain ⟨x, y, h⟩ := lib_part_mem hl hm
    cases h
  | @type ps qs _ k k' v hs hm hm' hc =>
    obtain ⟨x, y, h⟩ := lib_part_mem hl hm
    have hsec : libSectionOf (k, .map qs) = .types := by
      have : libKeys.lookup k.value = some .types := by rcases hs with h | h <;> rw [h] <;> decide
      simp only [libSectionOf, this]
    have h : ∃ x y, libStep X k (.map qs) .types x = .ok y := by
      rw [← hsec]; exact ⟨x, y, h⟩
    obtain ⟨x, y, h⟩ := h
    exact loadTypes_cause hm' hc _ _ h

example (X : Xyml) (v : Node) (l : Library) : parseLibrary X (some (.map [(.str "usage", v),
    (.scalar "!!bool" "types", .map [(.str "T", .map [(.str "type", .str "string"), (.str "", v)])])])) ≠
      .ok l :=
  C21_library_cause_not_ok X _ _ (.type (k := .scalar "!!bool" "types") (.inl rfl) (.tail _ (.head _))
    (.head _) (.key (kd := .string) (by rfl) rfl (.tail _ (.head _)))) l

/-- C21: an empty key after the entries of an acceptable library panics, whatever follows. -/
theorem C21_library_empty_key (X : Xyml) (pre post : List (Node × Node)) (v : Node) (l : Library)
    (h : parseLibrary X (some (.map pre)) = .ok l) :
    parseLibrary X (some (.map (pre ++ (Node.str "", v) :: post))) = .panic .emptyKey := by
  show forPairs (Library.assign X) (pre ++ (Node.str "", v) :: post) Library.new = _
  rw [forPairs_append, show forPairs (Library.assign X) pre Library.new = .ok l from h]
  rfl

/-- A library with a usage text and an empty key. -/
example (X : Xyml) (v : Node) : parseLibrary X (some (.map [(.str "usage", .str "u"),
    (.str "", v), (.str "uses", .map [])])) = .panic .emptyKey :=
  C21_library_empty_key X [(.str "usage", .str "u")] _ v _ rfl

/-! ### A check that needs no knowledge of types -/

/-- `m` is `n` or a value somewhere inside the mappings of `n`. -/
inductive Inside : Node → Node → Prop where
  | refl (n : Node) : Inside n n
  | step {n : Node} {ps : List (Node × Node)} {k v : Node} : Inside n (.map ps) → (k, v) ∈ ps →
      Inside n v

theorem Inside.trans {a b c : Node} (h1 : Inside a b) (h2 : Inside b c) : Inside a c := by
  induction h2 with
  | refl => exact h1
  | step _ hm ih => exact .step ih hm

theorem TypePos.inside {n m : Node} (h : TypePos n m) : Inside n m := by
  induction h with
  | items _ hm _ => exact .step (.refl _) hm
  | property _ hm _ hm' => exact .step (.step (.refl _) hm) hm'
  | facet _ _ hm _ hm' hm'' => exact .step (.step (.step (.refl _) hm) hm') hm''
  | trans _ _ h1 h2 => exact h1.trans h2

/-- What a cause looks like, without its place: an empty key in some mapping, or a nil or include
definition somewhere. -/
def Visible (c : Crash) (n : Node) : Prop :=
  match c with
  | .emptyKey => ∃ ps v, Inside n (.map ps) ∧ (Node.str "", v) ∈ ps
  | .notProperty => ∃ v, Inside n v ∧ DefBasic v

theorem Visible.inside {c : Crash} {n m : Node} (h : Inside n m) (hv : Visible c m) :
    Visible c n := by
  cases c with
  | emptyKey => obtain ⟨ps, v, h1, h2⟩ := hv; exact ⟨ps, v, h.trans h1, h2⟩
  | notProperty => obtain ⟨v, h1, h2⟩ := hv; exact ⟨v, h.trans h1, h2⟩

theorem TypeCause.visible {c : Crash} {n : Node} (h : TypeCause c n) : Visible c n := by
  induction h with
  | key _ _ hm => exact ⟨_, _, .refl _, hm⟩
  | inExample _ _ hm _ hm' => exact ⟨_, _, .step (.refl _) hm, hm'⟩
  | inExamples _ _ hm _ hm' hm'' => exact ⟨_, _, .step (.step (.refl _) hm) hm', hm''⟩
  | property _ hm _ hm' hd => exact ⟨_, .step (.step (.refl _) hm) hm', hd⟩
  | nested hp _ ih => exact ih.inside hp.inside

/-- C21: a tree with no empty key in any mapping and no nil or include definition anywhere never
makes any of the three parsers panic. -/
theorem C21_clean_tree (X : Xyml) (n : Node) (h : ∀ c, ¬ Visible c n) :
    (hat X n).isPanic = false ∧ (parseApi X n).isPanic = false ∧
      (parseLibrary X (some n)).isPanic = false := by
  refine ⟨?_, ?_, ?_⟩
  · cases hn : hat X n with
    | panic c => exact absurd (C21_type_panic_cause X n c hn).visible (h c)
    | _ => rfl
  · cases hn : parseApi X n with
    | panic c =>
      refine absurd ?_ (h c)
      cases C21_api_panic_cause X n c hn with
      | key hm => exact ⟨_, _, .refl _, hm⟩
      | type _ hm hm' hc => exact hc.visible.inside (.step (.step (.refl _) hm) hm')
    | _ => rfl
  · cases hn : parseLibrary X (some n) with
    | panic c =>
      refine absurd ?_ (h c)
      obtain ⟨m, hm, hc⟩ := C21_library_panic_cause X (some n) c hn
      cases hm
      cases hc with
      | key hm => exact ⟨_, _, .refl _, hm⟩
      | type _ hm hm' hc => exact hc.visible.inside (.step (.step (.refl _) hm) hm')
    | _ => rfl

/-- A tree that meets the condition: a document with a type with a property. -/
private theorem quiet_tree : ∀ c, ¬ Visible c (.map [(.str "title", .str "t"), (.str "types", .map [(.str "A",
    .map [(.str "properties", .map [(.str "a", .str "string")])])])]) := by
  have key : ∀ m, Inside (.map [(.str "title", .str "t"), (.str "types", .map [(.str "A",
      .map [(.str "properties", .map [(.str "a", .str "string")])])])]) m →
      m ∈ [Node.map [(.str "title", .str "t"), (.str "types", .map [(.str "A",
        .map [(.str "properties", .map [(.str "a", .str "string")])])])], .str "t",
        .map [(.str "A", .map [(.str "properties", .map [(.str "a", .str "string")])])],
        .map [(.str "properties", .map [(.str "a", .str "string")])],
        .map [(.str "a", .str "string")], .str "string"] := by
    intro m hm
    induction hm with
    | refl => simp
    | step _ hm ih =>
      simp only [List.mem_cons, List.not_mem_nil, or_false, Node.map.injEq, Node.str,
        reduceCtorEq, false_or] at ih
      rcases ih with rfl | rfl | rfl | rfl <;>
        simp only [List.mem_cons, List.not_mem_nil, or_false, Prod.mk.injEq] at hm
      · rcases hm with ⟨_, rfl⟩ | ⟨_, rfl⟩ <;> simp [Node.str]
      · obtain ⟨_, rfl⟩ := hm; simp [Node.str]
      · obtain ⟨_, rfl⟩ := hm; simp [Node.str]
      · obtain ⟨_, rfl⟩ := hm; simp [Node.str]
  intro c
  cases c with
  | emptyKey =>
    rintro ⟨ps, v, h1, h2⟩
    have := key _ h1
    simp only [List.mem_cons, List.not_mem_nil, or_false, Node.map.injEq, Node.str,
      reduceCtorEq, false_or] at this
    rcases this with rfl | rfl | rfl | rfl <;> simp [Node.str] at h2
  | notProperty =>
    rintro ⟨v, h1, h2⟩
    have hv := key _ h1
    simp only [List.mem_cons, List.not_mem_nil, or_false] at hv
    cases h2 with
    | tag s => simp [Node.str] at hv
    | name s hs =>
      simp only [Node.str, reduceCtorEq, Node.scalar.injEq, true_and, false_or] at hv
      rcases hv with rfl | rfl <;> revert hs <;> decide
    | @map ps kd hk hb =>
      simp only [Node.str, reduceCtorEq, Node.map.injEq, false_or, or_false] at hv
      rcases hv with rfl | rfl | rfl | rfl <;> (cases hk; revert hb; decide)

/-- So neither the type parser nor the other two panic on it. -/
example (X : Xyml) : (∃ t, hat X (.map [(.str "title", .str "t"), (.str "types", .map [(.str "A",
      .map [(.str "properties", .map [(.str "a", .str "string")])])])]) = .ok t) ∨
    ∃ e, hat X (.map [(.str "title", .str "t"), (.str "types", .map [(.str "A",
      .map [(.str "properties", .map [(.str "a", .str "string")])])])]) = .err e :=
  C21_type_no_panic X _ fun c h => quiet_tree c h.visible

example (X : Xyml) : (∃ a, parseApi X (.map [(.str "title", .str "t"), (.str "types", .map [(.str "A",
      .map [(.str "properties", .map [(.str "a", .str "string")])])])]) = .ok a) ∨
    ∃ e, parseApi X (.map [(.str "title", .str "t"), (.str "types", .map [(.str "A",
      .map [(.str "properties", .map [(.str "a", .str "string")])])])]) = .err e :=
  C21_api_no_panic X _ fun c h => quiet_tree c <| by
    cases h with
    | key hm => exact ⟨_, _, .refl _, hm⟩
    | type _ hm hm' hc => exact hc.visible.inside (.step (.step (.refl _) hm) hm')

example (X : Xyml) : (∃ l, parseLibrary X (some (.map [(.str "title", .str "t"), (.str "types",
      .map [(.str "A", .map [(.str "properties", .map [(.str "a", .str "string")])])])])) = .ok l) ∨
    ∃ e, parseLibrary X (some (.map [(.str "title", .str "t"), (.str "types",
      .map [(.str "A", .map [(.str "properties", .map [(.str "a", .str "string")])])])])) = .err e :=
  C21_library_no_panic X _ fun n c hn h => quiet_tree c <| by
    cases hn
    cases h with
    | key hm => exact ⟨_, _, .refl _, hm⟩
    | type _ hm hm' hc => exact hc.visible.inside (.step (.step (.refl _) hm) hm')

/-- And the theorem that covers all three. -/
example (X : Xyml) : (parseApi X (.map [(.str "title", .str "t"), (.str "types", .map [(.str "A",
    .map [(.str "properties", .map [(.str "a", .str "string")])])])])).isPanic = false :=
  (C21_clean_tree X _ quiet_tree).2.1

/-- A cause three levels down: an empty key in the example of the item type of a property. -/
example : TypeCause .emptyKey (.map [(.str "properties", .map [(.str "a", .map [(.str "items",
    .map [(.str "type", .str "integer"), (.str "example", .map [(.str "", .str "x")])])])])]) :=
  .nested (.property (k := .str "properties") (k' := .str "a") (by decide)
      (List.mem_singleton.mpr rfl) rfl (List.mem_singleton.mpr rfl))
    (.nested (.items (k := .str "items") (by decide) (List.mem_singleton.mpr rfl) rfl)
      (.inExample (k := .str "example") (kd := .integer) (by decide) rfl
        (List.mem_cons_of_mem _ (List.mem_singleton.mpr rfl)) rfl (List.mem_singleton.mpr rfl)))

end Verif.Props
