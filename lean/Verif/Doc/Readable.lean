import Verif.Doc.ReadableSpec

/-! # Everything the parser returns is readable -/

namespace Verif.Doc
open Verif Verif.Doc.Spec

/-! ### Parts -/

theorem asUint_range {X : Xyml} {v : Node} {n : Nat} (h : asUint X v = .ok n) : IsUint64 n := by
  obtain ⟨i, _, rfl⟩ := Res.map_eq_ok.mp h
  unfold IsUint64
  omega

theorem asScalar_ok {X : Xyml} {k : Node} {s : Scalar} (h : asScalar X k = .ok s) :
    X.toScalar k = some s := by
  unfold asScalar at h
  split at h
  · cases h; assumption
  · cases h

theorem Example.assign_keys {X : Xyml} {k v : Node} {e e' : Example}
    (he : ∀ p ∈ e.extra.ents, ExampleKey X p.1) (h : e.assign X k v = .ok e') :
    ∀ p ∈ e'.extra.ents, ExampleKey X p.1 := by
  have hextra : ∀ {e'}, (k.isStr = true → PlainKey k.value ∧ k.value ∉ exampleKeys) →
      e.putExtra X k v = .ok e' → ∀ p ∈ e'.extra.ents, ExampleKey X p.1 := by
    intro e' hk h
    obtain ⟨s, hs, rfl⟩ := Res.map_eq_ok.mp h
    intro p hp
    rcases mem_put hp with hp | rfl
    · exact he p hp
    · exact ⟨k, asScalar_ok hs, hk⟩
  unfold Example.assign at h
  split at h
  · rename_i hk
    refine hextra (fun hk' => ?_) h
    rw [hk'] at hk
    cases hk
  · split at h
    · cases h
    · rename_i c hc
      split at h
      · obtain ⟨_, _, rfl⟩ := Res.map_eq_ok.mp h
        exact he
      · rename_i hp
        split at h
        · obtain ⟨_, _, rfl⟩ := Res.map_eq_ok.mp h
          exact he
        · rename_i h1
          split at h
          · obtain ⟨_, _, rfl⟩ := Res.map_eq_ok.mp h
            exact he
          · rename_i h2
            split at h
            · obtain ⟨_, _, rfl⟩ := Res.map_eq_ok.mp h
              exact he
            · rename_i h3
              split at h
              · obtain ⟨_, _, rfl⟩ := Res.map_eq_ok.mp h
                exact he
              · rename_i h4
                refine hextra (fun _ => ⟨⟨?_, ?_⟩, ?_⟩) h
                · intro h0
                  rw [h0] at hc
                  cases hc
                · intro h0
                  rw [firstChar_eq, h0] at hc
                  exact hp (Option.some.inj hc).symm
                · simp only [exampleKeys, List.mem_cons, List.not_mem_nil, or_false, not_or]
                  exact ⟨h1, h2, h3, h4⟩

theorem Example.unmarshal_readable {X : Xyml} (hX : Lawful X) {kd : Kind} {v : Node}
    {e : Example} (h : (Example.new kd).unmarshal X v = .ok e) : ReadableExample X kd e := by
  refine ⟨Example.unmarshal_parsed hX (parsedExample_new kd) h, ?_⟩
  unfold Example.unmarshal at h
  split at h
  · refine forPairs_inv_mem (I := fun e : Example => ∀ p ∈ e.extra.ents, ExampleKey X p.1)
      (fun p _ s s' hI hs => Example.assign_keys hI hs) ?_ h
    exact fun p hp => (nomatch hp)
  · obtain ⟨x, _, rfl⟩ := Res.map_eq_ok.mp h
    exact fun p hp => (nomatch hp)

theorem loadExample_readable {X : Xyml} (hX : Lawful X) {kd : Kind} {v : Node} {e : Example}
    (h : loadExample X kd v = .ok e) : kd ≠ .any ∧ ReadableExample X kd e := by
  refine ⟨(loadExample_parsed hX h).1, ?_⟩
  unfold loadExample at h
  obtain ⟨e0, h0, h1⟩ := Res.bind_eq_ok.mp h
  have : e0 = Example.new kd := by
    cases kd <;> first | (cases h0; rfl) | cases h0
  rw [this] at h1
  exact Example.unmarshal_readable hX h1

theorem loadExamples_readable {X : Xyml} (hX : Lawful X) {kd : Kind} {v : Node}
    {m m' : OM String Example} (h : loadExamples X kd m v = .ok m')
    (hm : ∀ e ∈ m.ents, ReadableExample X kd e.2) :
    ∀ e ∈ m'.ents, ReadableExample X kd e.2 := by
  cases v with
  | map ps =>
    refine forPairs_inv_mem (I := fun x : OM String Example =>
      ∀ e ∈ x.ents, ReadableExample X kd e.2) ?_ hm h
    intro p _ s s' hI hs
    obtain ⟨k, _, h2⟩ := Res.bind_eq_ok.mp hs
    obtain ⟨e, he, rfl⟩ := Res.map_eq_ok.mp h2
    intro x hx
    rcases mem_put hx with hx | rfl
    · exact hI x hx
    · exact Example.unmarshal_readable hX he
  | _ => cases h

theorem XML.assign_readable {X : Xyml} {k v : Node} {x x' : XML} (hx : ReadableXML X x)
    (h : x.assign X k v = .ok x') : ReadableXML X x' := by
  unfold XML.assign at h
  split at h
  · obtain ⟨_, _, rfl⟩ := Res.map_eq_ok.mp h
    exact ⟨hx.1, hx.2, hx.3⟩
  · rename_i h1
    split at h
    · obtain ⟨_, _, rfl⟩ := Res.map_eq_ok.mp h
      exact ⟨hx.1, hx.2, hx.3⟩
    · rename_i h2
      split at h
      · obtain ⟨_, _, rfl⟩ := Res.map_eq_ok.mp h
        exact ⟨hx.1, hx.2, hx.3⟩
      · rename_i h3
        split at h
        · obtain ⟨_, _, rfl⟩ := Res.map_eq_ok.mp h
          exact ⟨hx.1, hx.2, hx.3⟩
        · rename_i h4
          split at h
          · obtain ⟨_, _, rfl⟩ := Res.map_eq_ok.mp h
            exact ⟨hx.1, hx.2, hx.3⟩
          · rename_i h5
            obtain ⟨s, hs, rfl⟩ := Res.map_eq_ok.mp h
            refine ⟨hx.1, distinct_put _ _ hx.2, fun p hp => ?_⟩
            rcases mem_put hp with hp | rfl
            · exact hx.3 p hp
            · refine ⟨k, asScalar_ok hs, ?_⟩
              simp only [xmlKeys, List.mem_cons, List.not_mem_nil, or_false, not_or]
              exact ⟨h1, h2, h3, h4, h5⟩

theorem loadXML_readable {X : Xyml} {v : Node} {x : XML} (h : loadXML X v = .ok x) :
    ReadableXML X x := by
  cases v with
  | map ps =>
    refine forPairs_inv_mem (I := ReadableXML X)
      (fun p _ s s' hI hs => XML.assign_readable hI hs) ?_ h
    exact ⟨rfl, List.nodup_nil, fun p hp => (nomatch hp)⟩
  | _ => cases h

/-! ### Types -/

/-- A count that was read is in range (auxiliary). -/
def UintOK (o : Option Nat) : Prop := ∀ n, o = some n → IsUint64 n

/-- What the parser guarantees about one facet besides `FacetOK` (auxiliary). -/
def FacetMore (X : Xyml) (kd : Kind) : (f : Facet) → f.Ty → Prop
  | .example, o => ∀ e, o = some e → ReadableExample X kd e
  | .examples, m => ∀ e ∈ OM.ents m, ReadableExample X kd e.2
  | .xml, o => ∀ x, o = some x → ReadableXML X x
  | .minLength, o => UintOK o
  | .maxLength, o => UintOK o
  | .minItems, o => UintOK o
  | .maxItems, o => UintOK o
  | .minProperties, o => UintOK o
  | .maxProperties, o => UintOK o
  | _, _ => True

theorem facetStep_more {X : Xyml} (hX : Lawful X) {kd : Kind} {k v : Node} {f : Facet}
    {x y : f.Ty} (h : facetStep X kd k v f x = .ok y) (hx : FacetMore X kd f x) :
    FacetMore X kd f y := by
  have hu : ∀ {y : Option Nat}, (asUint X v).map some = .ok y → UintOK y := by
    intro y h
    obtain ⟨n, hn, rfl⟩ := Res.map_eq_ok.mp h
    intro m hm
    cases hm
    exact asUint_range hn
  cases f with
  | «example» =>
    obtain ⟨e, he, rfl⟩ := Res.map_eq_ok.mp h
    intro e' he'
    cases he'
    exact (loadExample_readable hX he).2
  | examples => exact loadExamples_readable hX h hx
  | xml =>
    obtain ⟨e, he, rfl⟩ := Res.map_eq_ok.mp h
    intro e' he'
    cases he'
    exact loadXML_readable he
  | minLength => exact hu h
  | maxLength => exact hu h
  | minItems => exact hu h
  | maxItems => exact hu h
  | minProperties => exact hu h
  | maxProperties => exact hu h
  | _ => exact trivial

theorem facetMore_new (X : Xyml) (kd : Kind) (s : String) (f : Facet) :
    FacetMore X kd f (look f ((DT.new kd).setSchema s)) := by
  have hu : ∀ (o : Option Nat), o = none ∨ o = some 0 ∨ o = some 2147483647 → UintOK o := by
    intro o ho n hn
    subst hn
    unfold IsUint64
    rcases ho with ho | ho | ho <;> simp at ho <;> omega
  cases f with
  | «example» => intro e he; cases kd <;> cases he
  | examples => intro e he; cases kd <;> cases he
  | xml => intro e he; cases kd <;> cases he
  | minLength => refine hu _ ?_; cases kd <;> first | exact .inl rfl | exact .inr (.inl rfl)
  | maxLength => refine hu _ ?_; cases kd <;> first | exact .inl rfl | exact .inr (.inr rfl)
  | minItems => refine hu _ ?_; cases kd <;> first | exact .inl rfl | exact .inr (.inl rfl)
  | maxItems => refine hu _ ?_; cases kd <;> first | exact .inl rfl | exact .inr (.inr rfl)
  | minProperties => refine hu _ ?_; cases kd <;> exact .inl rfl
  | maxProperties => refine hu _ ?_; cases kd <;> exact .inl rfl
  | _ => exact trivial

theorem readable_of_facets {X : Xyml} {t : DT} (h : ∀ f, FacetOK t.kind (Readable X) f (look f t))
    (hm : ∀ f, FacetMore X t.kind f (look f t)) (hd : dflt t = none) : Readable X t := by
  cases t with
  | basic i s x => exact .basic (h .extra)
  | ext g b fs ps it =>
    have h1 : ParsedExtra b.kind g.extra := h .extra
    have h2 : ParsedAnns true g.annotations := h .annotations
    have h3 : ∀ l, g.enum = some l → l ≠ [] ∧ ∀ v ∈ l, FitsEnum b.kind v := h .enum
    have h4 : ∀ e, g.example = some e → b.kind ≠ .any ∧ ParsedExample b.kind e := h .example
    have h4' : ∀ e, g.example = some e → ReadableExample X b.kind e := hm .example
    obtain ⟨h5, h6, _⟩ : g.examples.omap = false ∧ Distinct g.examples.ents ∧
      ∀ e ∈ g.examples.ents, ParsedExample b.kind e.2 := h .examples
    have h7 : ∀ e ∈ g.examples.ents, ReadableExample X b.kind e.2 := hm .examples
    obtain ⟨h8, h9, h10⟩ : fs.omap = true ∧ Distinct fs.ents ∧
      ∀ f ∈ fs.ents, f.2.omap = true ∧ Distinct f.2.ents ∧ ∀ e ∈ f.2.ents, Readable X e.2 :=
      h .facets
    obtain ⟨h11, h12, h13, h14⟩ : ps.omap = false ∧ Distinct ps.ents ∧
      (ps.ents ≠ [] → b.kind = .object) ∧ ∀ e ∈ ps.ents, e.2.isProperty = true ∧ Readable X e.2 :=
      h .properties
    obtain ⟨h15, h16⟩ : (it ≠ none → b.kind = .array) ∧ ∀ t, it = some t → Readable X t := h .items
    refine .ext ⟨h1, h2, hd, h3, fun e he => ⟨(h4 e he).1, h4' e he⟩, h5, h6, h7, hm .xml⟩ ?_ h8 h9
      (fun f hf => ⟨(h10 f hf).1, (h10 f hf).2.1⟩)
      (fun f hf => (h10 f hf).2.2) h11 h12 h13 (fun e he => (h14 e he).1) (fun e he => (h14 e he).2)
      h15 h16
    cases b with
    | integer f =>
      refine ⟨fun n hn => ?_, fun n hn => ?_⟩
      · have : ∀ n, Bound.int f.minimum = Bound.int (some n) → IsInt64 n := h .minimum
        exact this n (by rw [hn])
      · have : ∀ n, Bound.int f.maximum = Bound.int (some n) → IsInt64 n := h .maximum
        exact this n (by rw [hn])
    | string f => exact ⟨(show UintOK (some f.minLength) from hm .minLength) _ rfl, hm .maxLength⟩
    | file f => exact ⟨(show UintOK (some f.minLength) from hm .minLength) _ rfl,
        (show UintOK (some f.maxLength) from hm .maxLength) _ rfl⟩
    | array f => exact ⟨(show UintOK (some f.minItems) from hm .minItems) _ rfl,
        (show UintOK (some f.maxItems) from hm .maxItems) _ rfl⟩
    | object f => exact ⟨hm .minProperties, hm .maxProperties⟩
    | _ => exact trivial

/-- Everything the parser returns is readable. -/
theorem hat_readable {X : Xyml} (hX : Lawful X) {n : Node} {t : DT} (h : hat X n = .ok t) :
    Readable X t := by
  generalize hs : sizeOf n = sz
  induction sz using Nat.strongRecOn generalizing n t with
  | ind sz ih =>
    cases n with
    | scalar tag v =>
      have : ∃ s, t = (DT.new t.kind).setSchema s := by
        unfold hat at h
        split at h
        · cases h
          refine ⟨v, ?_⟩
          rw [(typeToKind_spec v).1]
          exact typeToKind_eq v
        · split at h
          · cases h; exact ⟨v, rfl⟩
          · cases h
      obtain ⟨s, hs⟩ := this
      refine readable_of_facets ?_ ?_ (hat_dflt h) <;> intro f <;>
        generalize hk : t.kind = kd at hs <;> rw [hs]
      · exact facetOK_new kd _ s f
      · exact facetMore_new X kd s f
    | seq tag ns => unfold hat at h; cases h
    | map ps =>
      have hdf := hat_dflt h
      obtain ⟨t0, h0, _, _, h1, hk⟩ := hat_map_ok h
      obtain ⟨s, hs0⟩ := siftType_form h0
      rw [assignAll_eq] at h1
      have := forPairs_inv_mem (f := fun k v t => assign X (k, v) t)
        (I := fun u => u.kind = t.kind ∧ (∀ f, FacetOK t.kind (Readable X) f (look f u)) ∧
          ∀ f, FacetMore X t.kind f (look f u)) (ps := ps) ?_
        (s := t0) (s' := t) ⟨hk.symm, ?_, ?_⟩ h1
      · exact readable_of_facets this.2.1 this.2.2 hdf
      · intro p hp s s' hI hstep
        refine ⟨(assign_kind hstep).trans hI.1, ?_, ?_⟩
        all_goals
          obtain ⟨h2, h3⟩ := assign_ok hI.1 hstep
          intro f
          by_cases hf : f = facetOf t.kind (p.1, p.2)
        · subst hf
          refine facetStep_ok hX rfl h2 ?_ (hI.2.1 _)
          intro n u hn hu
          refine ih (sizeOf n) ?_ hu rfl
          rw [← hs]
          exact Nat.lt_of_le_of_lt hn (size_entry hp)
        · rw [h3 f hf]
          exact hI.2.1 f
        · subst hf
          exact facetStep_more hX h2 (hI.2.2 _)
        · rw [h3 f hf]
          exact hI.2.2 f
      · intro f
        rw [hs0, ← hk]
        exact facetOK_new _ _ s f
      · intro f
        rw [hs0, ← hk]
        exact facetMore_new X _ s f

/-! ### API documents and libraries -/

theorem loadTypes_readable {X : Xyml} (hX : Lawful X) {m m' : OM String DT} {v : Node}
    (h : loadTypes X v m = .ok m') (hp : ∀ e ∈ m.ents, Readable X e.2) :
    ∀ e ∈ m'.ents, Readable X e.2 := by
  cases v with
  | map ps =>
    have h : loadTypesL X ps m = .ok m' := h
    rw [loadTypesL_eq] at h
    refine forPairs_inv_mem (I := fun x : OM String DT => ∀ e ∈ x.ents, Readable X e.2) ?_ hp h
    intro p hp s s' hI hs
    obtain ⟨t, ht, _, rfl⟩ := loadType_ok hs
    intro x hx
    rcases mem_put hx with hx | rfl
    · exact hI x hx
    · exact hat_readable hX ht
  | _ => unfold loadTypes at h; cases h

theorem loadDocumentation_readable {X : Xyml} {v : Node} {d : Documentation}
    (h : loadDocumentation X v = .ok d) : ReadableDoc X d := by
  cases v with
  | map ps =>
    refine forPairs_inv_mem (I := ReadableDoc X) ?_ ?_ h
    · intro p _ d d' hd hs
      unfold Documentation.assign at hs
      split at hs
      · cases hs; exact ⟨hd.1, hd.2, hd.3⟩
      · rename_i h1
        split at hs
        · cases hs; exact ⟨hd.1, hd.2, hd.3⟩
        · rename_i h2
          obtain ⟨s, hsc, rfl⟩ := Res.map_eq_ok.mp hs
          refine ⟨hd.1, distinct_put _ _ hd.2, fun q hq => ?_⟩
          rcases mem_put hq with hq | rfl
          · exact hd.3 q hq
          · exact ⟨p.1, asScalar_ok hsc, h1, h2⟩
    · exact ⟨rfl, List.nodup_nil, fun p hp => (nomatch hp)⟩
  | _ => cases h

theorem pushDoc_readable {X : Xyml} {v : Node} {l l' : Option (List Documentation)}
    (h : seqForEach (pushDoc X) v l = .ok l') (hl : ∀ x, l = some x → ∀ d ∈ x, ReadableDoc X d) :
    ∀ x, l' = some x → ∀ d ∈ x, ReadableDoc X d := by
  cases v with
  | seq t ns =>
    have h : forItems (pushDoc X) ns l = .ok l' := h
    induction ns generalizing l with
    | nil => cases h; exact hl
    | cons n ns ih =>
      obtain ⟨l1, h1, h2⟩ := Res.bind_eq_ok.mp h
      obtain ⟨d, hd, rfl⟩ := Res.map_eq_ok.mp h1
      refine ih ?_ h2 h2
      intro x hx e he
      cases hx
      rcases List.mem_append.mp he with he | he
      · cases l with
        | none => cases he
        | some y => exact hl y rfl e he
      · rw [List.mem_singleton] at he
        subst he
        exact loadDocumentation_readable hd
  | _ => cases h

/-- What holds of each part of a parsed API document besides `ApiOK` (auxiliary). -/
def ApiMore (X : Xyml) : (s : ApiSection) → s.Ty → Prop
  | .types, m => ∀ e ∈ OM.ents (V := DT) m, Readable X e.2
  | .extra, m => ∀ e ∈ OM.ents (K := Scalar) (V := Node) m, ApiKey X e.1
  | .documentation, l => ∀ x, l = some x → ∀ d ∈ x, ReadableDoc X d
  | _, _ => True

theorem apiStep_more {X : Xyml} (hX : Lawful X) {k v : Node} {s : ApiSection} {x y : s.Ty}
    (hs : apiSectionOf (k, v) = s) (h : apiStep X k v s x = .ok y) (hx : ApiMore X s x) :
    ApiMore X s y := by
  cases s with
  | types => exact loadTypes_readable hX h hx
  | documentation => exact pushDoc_readable h hx
  | extra =>
    have h : (if k.isStr && k.value == "" then Res.panic .emptyKey
      else (asScalar X k).map fun s => OM.put (V := Node) x s v) = .ok y := h
    split at h
    · cases h
    · rename_i hne
      obtain ⟨s, hsc, hy⟩ := Res.map_eq_ok.mp h
      subst hy
      intro e he
      rcases mem_put (V := Node) he with he | rfl
      · exact hx e he
      · refine ⟨k, asScalar_ok hsc, fun hk => ?_⟩
        simp only [hk, Bool.true_and, beq_iff_eq] at hne
        unfold apiSectionOf at hs
        simp only [startsWith, hk, Bool.true_and, beq_iff_eq] at hs
        split at hs
        · cases hs
        · rename_i h1
          split at hs
          · cases hs
          · rename_i h2
            simp only [if_true] at hs
            refine ⟨⟨hne, h1⟩, h2, ?_⟩
            cases hl : apiKeys.lookup k.value with
            | none =>
              rw [List.lookup_eq_none_iff] at hl
              intro hm
              obtain ⟨e, he, heq⟩ := List.mem_map.mp hm
              have := hl e he
              rw [heq] at this
              simp at this
            | some c =>
              rw [hl] at hs
              have hs : c = .extra := hs
              subst hs
              obtain ⟨l1, l2, hl', _⟩ := List.lookup_eq_some_iff.mp hl
              have hm : (k.value, ApiSection.extra) ∈ apiKeys := by rw [hl']; simp
              have : ∀ e ∈ apiKeys, e.2 ≠ .extra := by decide
              exact absurd rfl (this _ hm)
  | _ => trivial

/-- Every API document that is read is readable. -/
theorem parseApi_readable {X : Xyml} (hX : Lawful X) {n : Node} {a : APISpec}
    (h : parseApi X n = .ok a) : ReadableApi X a := by
  have hp := parseApi_parsed hX h
  cases n with
  | map ps =>
    have key : ∀ s, ApiMore X s (apiGet s a) := by
      refine forPairs_inv_mem (f := APISpec.assign X) (ps := ps)
        (I := fun b : APISpec => ∀ s, ApiMore X s (apiGet s b)) ?_ ?_ h
      · intro p _ b b' hI hb s
        obtain ⟨h1, h2⟩ := api_assign_ok hb
        by_cases hs : s = apiSectionOf (p.1, p.2)
        · subst hs
          exact apiStep_more hX rfl h1 (hI _)
        · rw [h2 s hs]; exact hI s
      · intro s
        cases s with
        | types => exact fun e h => (nomatch h)
        | extra => exact fun e h => (nomatch h)
        | documentation => exact fun x h => (nomatch h)
        | _ => trivial
    exact ⟨hp, key .types, key .documentation, key .extra⟩
  | _ => cases h

/-- What holds of each part of a parsed library besides `LibOK` (auxiliary). -/
def LibMore (X : Xyml) : (s : LibSection) → s.Ty → Prop
  | .types, m => ∀ e ∈ OM.ents (V := DT) m, Readable X e.2
  | .extra, m => ∀ e ∈ OM.ents (K := Scalar) (V := Node) m, LibKey X e.1
  | _, _ => True

theorem libStep_more {X : Xyml} (hX : Lawful X) {k v : Node} {s : LibSection} {x y : s.Ty}
    (hs : libSectionOf (k, v) = s) (h : libStep X k v s x = .ok y) (hx : LibMore X s x) :
    LibMore X s y := by
  cases s with
  | types => exact loadTypes_readable hX h hx
  | extra =>
    have h : (if k.isStr && k.value == "" then Res.panic .emptyKey
      else (asScalar X k).map fun s => OM.put (V := Node) x s v) = .ok y := h
    split at h
    · cases h
    · rename_i hne
      obtain ⟨s, hsc, hy⟩ := Res.map_eq_ok.mp h
      subst hy
      intro e he
      rcases mem_put (V := Node) he with he | rfl
      · exact hx e he
      · unfold libSectionOf at hs
        cases hl : libKeys.lookup k.value with
        | some c =>
          simp only at hs
          rw [hl] at hs
          have hs : c = .extra := hs
          subst hs
          obtain ⟨l1, l2, hl', _⟩ := List.lookup_eq_some_iff.mp hl
          have hm : (k.value, LibSection.extra) ∈ libKeys := by rw [hl']; simp
          have : ∀ e ∈ libKeys, e.2 ≠ .extra := by decide
          exact absurd rfl (this _ hm)
        | none =>
          simp only at hs
          rw [hl] at hs
          rw [List.lookup_eq_none_iff] at hl
          refine ⟨k, asScalar_ok hsc, ?_, fun hk => ?_⟩
          · intro hm
            obtain ⟨e, he, heq⟩ := List.mem_map.mp hm
            have := hl e he
            rw [heq] at this
            simp at this
          · simp only [hk, Bool.true_and, beq_iff_eq] at hne
            refine ⟨hne, fun hh => ?_⟩
            have : startsWith '(' k = true := by simp [startsWith, hk, hh]
            simp [this] at hs
  | _ => trivial

/-- Every library that is read is readable. -/
theorem parseLibrary_readable {X : Xyml} (hX : Lawful X) {o : Option Node} {l : Library}
    (h : parseLibrary X o = .ok l) : ReadableLib X l := by
  have hp := parseLibrary_parsed hX h
  have init : ∀ s, LibMore X s (libGet s Library.new) := by
    intro s
    cases s with
    | types => exact fun e h => (nomatch h)
    | extra => exact fun e h => (nomatch h)
    | _ => trivial
  cases o with
  | none => cases h; exact ⟨hp, init .types, init .extra⟩
  | some n =>
    cases n with
    | map ps =>
      have key : ∀ s, LibMore X s (libGet s l) := by
        refine forPairs_inv_mem (f := Library.assign X) (ps := ps)
          (I := fun b : Library => ∀ s, LibMore X s (libGet s b)) ?_ init h
        intro p _ b b' hI hb s
        obtain ⟨h1, h2, h3⟩ := lib_assign_ok hb
        by_cases hs : s = libSectionOf (p.1, p.2)
        · subst hs
          exact libStep_more hX rfl h1 (hI _)
        · rw [h2 s hs]; exact hI s
      exact ⟨hp, key .types, key .extra⟩
    | _ => cases h

end Verif.Doc
