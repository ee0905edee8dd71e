import Verif.Doc.RoundTrip

/-! # What the parser guarantees about the data types it returns -/

namespace Verif.Doc.Spec
open Verif Verif.Doc

/-- Annotations as the parser builds them. -/
structure ParsedAnns (flag : Bool) (m : OM String Ann) : Prop where
  omap : m.omap = flag
  distinct : Distinct m.ents
  keys : ∀ e ∈ m.ents, e.1.toList.head? = some '('
  values : ∀ e ∈ m.ents, e.2.omap = true ∧ Distinct e.2.ents

/-- Examples as the parser builds them. -/
structure ParsedExample (kd : Kind) (e : Example) : Prop where
  kind : e.kind = kd
  value : ∀ v, e.value = some v → FitsExample kd v
  annotations : ParsedAnns false e.annotations
  extraFlag : e.extra.omap = false
  extra : Distinct e.extra.ents

/-- Extra facets as the parser builds them. -/
structure ParsedExtra (kd : Kind) (m : OM Scalar Node) : Prop where
  omap : m.omap = true
  distinct : Distinct m.ents
  keys : ∀ p ∈ m.ents, ∃ s, p.1 = .str s ∧ s ∉ facetNames kd

/-- Common facets as the parser builds them. -/
structure ParsedHdr (kd : Kind) (h : Hdr) : Prop where
  extra : ParsedExtra kd h.extra
  annotations : ParsedAnns true h.annotations
  dflt : h.dflt = none
  enum : ∀ l, h.enum = some l → l ≠ [] ∧ ∀ v ∈ l, FitsEnum kd v
  «example» : ∀ e, h.example = some e → kd ≠ .any ∧ ParsedExample kd e
  examplesFlag : h.examples.omap = false
  examplesDistinct : Distinct h.examples.ents
  examples : ∀ e ∈ h.examples.ents, ParsedExample kd e.2

/-- Integer bounds as the parser builds them. -/
def ParsedBody : Body → Prop
  | .integer f => (∀ n, f.minimum = some n → IsInt64 n) ∧ ∀ n, f.maximum = some n → IsInt64 n
  | _ => True

/-- Data types as the parser builds them, at any depth. -/
inductive Parsed : DT → Prop where
  | basic {i : Bool} {s : String} {x : OM Scalar Node} :
      ParsedExtra (if i then .include else .nil) x → Parsed (.basic i s x)
  | ext {h : Hdr} {b : Body} {fs : OM String (OM String DT)} {ps : OM String DT}
      {it : Option DT} :
      ParsedHdr b.kind h → ParsedBody b →
      fs.omap = true → Distinct fs.ents →
      (∀ f ∈ fs.ents, f.2.omap = true ∧ Distinct f.2.ents) →
      (∀ f ∈ fs.ents, ∀ e ∈ f.2.ents, Parsed e.2) →
      ps.omap = false → Distinct ps.ents → (ps.ents ≠ [] → b.kind = .object) →
      (∀ e ∈ ps.ents, e.2.isProperty = true) → (∀ e ∈ ps.ents, Parsed e.2) →
      (it ≠ none → b.kind = .array) → (∀ t, it = some t → Parsed t) →
      Parsed (.ext h b fs ps it)

/-- Data types that use only what can be written: the type names the kind, numbers fit `int64`,
and there are no examples, annotations, facet definitions or XML settings, at any depth. -/
inductive Mild : DT → Prop where
  | nil {x : OM Scalar Node} : Mild (.basic false "nil" x)
  | incl {s : String} {b : Bool} : Mild (.basic true s ⟨[], b⟩)
  | ext {h : Hdr} {b : Body} {fs : OM String (OM String DT)} {ps : OM String DT}
      {it : Option DT} :
      classify h.schema = b.kind → WritableBody b →
      (∀ p ∈ h.extra.ents, ∀ s, p.1 = .str s → PlainKey s) →
      h.annotations.ents = [] → h.xml = none → h.example = none → h.examples.ents = [] →
      fs.ents = [] → (∀ e ∈ ps.ents, Mild e.2) → (∀ t, it = some t → Mild t) →
      Mild (.ext h b fs ps it)

end Verif.Doc.Spec

namespace Verif.Doc
open Verif Verif.Doc.Spec

/-! ### Puts -/

section
variable {K V : Type} [DecidableEq K]

theorem distinct_put {m : OM K V} (k : K) (v : V) (h : Distinct m.ents) :
    Distinct (m.put k v).ents := OM.nodup_put k v h

theorem mem_put {m : OM K V} {k : K} {v : V} {e : K × V} (h : e ∈ (m.put k v).ents) :
    e ∈ m.ents ∨ e = (k, v) := by
  simp only [OM.put, List.mem_append, List.mem_filter, List.mem_singleton] at h
  rcases h with h | h
  · exact .inl h.1
  · exact .inr h

theorem omap_put (m : OM K V) (k : K) (v : V) : (m.put k v).omap = m.omap := rfl

end

theorem forPairs_inv_mem {σ : Type} {f : Node → Node → σ → Res σ} {I : σ → Prop}
    {ps : List (Node × Node)}
    (hf : ∀ p ∈ ps, ∀ s s', I s → f p.1 p.2 s = .ok s' → I s') :
    ∀ {s s' : σ}, I s → forPairs f ps s = .ok s' → I s' := by
  induction ps with
  | nil => intro s s' hs h; cases h; exact hs
  | cons p ps ih =>
    intro s s' hs h
    obtain ⟨s1, h1, h2⟩ := Res.bind_eq_ok.mp h
    exact ih (fun q hq => hf q (by simp [hq])) (hf p (by simp) s s1 hs h1) h2

theorem size_entry {ps : List (Node × Node)} {p : Node × Node} (h : p ∈ ps) :
    sizeOf p.2 < sizeOf (Node.map ps) := by
  have h1 := List.sizeOf_lt_of_mem h
  have h2 : sizeOf p.2 < sizeOf p := by obtain ⟨a, b⟩ := p; simp; omega
  simp only [Node.map.sizeOf_spec]
  omega

/-! ### Parts -/

theorem loadUntyped_parsed {m m' : OM String Node} {v : Node} (h : loadUntyped m v = .ok m')
    (hd : Distinct m.ents) : m'.omap = m.omap ∧ Distinct m'.ents := by
  cases v with
  | map ps =>
    refine forPairs_inv_mem (I := fun x => x.omap = m.omap ∧ Distinct x.ents) ?_ ⟨rfl, hd⟩ h
    intro p _ s s' hI hs
    obtain ⟨k, _, rfl⟩ := Res.map_eq_ok.mp hs
    exact ⟨hI.1, distinct_put _ _ hI.2⟩
  | _ => cases h

theorem loadAnn_parsed {a : Ann} {v : Node} (h : loadAnn v = .ok a) :
    a.omap = true ∧ Distinct a.ents := loadUntyped_parsed h List.nodup_nil

theorem Spec.ParsedAnns.put {flag : Bool} {m : OM String Ann} {k : String} {v : Node} {a : Ann}
    (hm : ParsedAnns flag m) (hk : k.toList.head? = some '(') (ha : loadAnn v = .ok a) :
    ParsedAnns flag (m.put k a) where
  omap := hm.omap
  distinct := distinct_put _ _ hm.distinct
  keys := fun e he => by
    rcases mem_put he with he | rfl
    · exact hm.keys e he
    · exact hk
  values := fun e he => by
    rcases mem_put he with he | rfl
    · exact hm.values e he
    · exact loadAnn_parsed ha

theorem asInt_range {X : Xyml} (hX : Lawful X) {v : Node} {i : Int} (h : asInt X v = .ok i) :
    IsInt64 i := by
  unfold asInt at h
  split at h
  · rename_i j hj
    cases h
    exact hX.toInt_range hj
  · cases h

theorem enumVal_fits {X : Xyml} (hX : Lawful X) {kd : Kind} {n : Node} {v : Val}
    (h : enumVal X kd n = .ok v) : FitsEnum kd v := by
  cases kd <;> simp only [enumVal] at h
  all_goals first
    | (cases h; exact ⟨_, rfl⟩)
    | (obtain ⟨i, hi, rfl⟩ := Res.map_eq_ok.mp h
       first
         | exact ⟨i, rfl⟩
         | exact ⟨i, rfl, asInt_range hX hi⟩)
    | (split at h
       · cases h; exact ⟨_, rfl⟩
       · cases h)

theorem exampleVal_fits {X : Xyml} (hX : Lawful X) {kd : Kind} {n : Node} {v : Val}
    (h : exampleVal X kd n = .ok v) : FitsExample kd v := by
  cases kd <;> simp only [exampleVal] at h
  all_goals first
    | (cases h; exact ⟨_, rfl⟩)
    | (obtain ⟨i, hi, rfl⟩ := Res.map_eq_ok.mp h
       first
         | exact ⟨i, rfl⟩
         | exact ⟨i, rfl, asInt_range hX hi⟩)
    | (split at h
       · cases h; exact ⟨_, rfl⟩
       · cases h)

theorem loadEnum_parsed {X : Xyml} (hX : Lawful X) {kd : Kind} {n : Node}
    {l l' : Option (List Val)} (h : loadEnum X kd l n = .ok l')
    (hl : ∀ x, l = some x → x ≠ [] ∧ ∀ v ∈ x, FitsEnum kd v) :
    ∀ x, l' = some x → x ≠ [] ∧ ∀ v ∈ x, FitsEnum kd v := by
  cases n with
  | seq tag ns =>
    have h' : forItems (fun n l => (enumVal X kd n).map fun x => pushEnum x l) ns l = .ok l' := h
    clear h
    induction ns generalizing l with
    | nil => cases h'; exact hl
    | cons n ns ih =>
      obtain ⟨l1, h1, h2⟩ := Res.bind_eq_ok.mp h'
      obtain ⟨v, hv, rfl⟩ := Res.map_eq_ok.mp h1
      refine ih ?_ h2
      intro x hx
      cases hx
      refine ⟨by simp, ?_⟩
      intro w hw
      rcases List.mem_append.mp hw with hw | hw
      · cases l with
        | none => cases hw
        | some y => exact (hl y rfl).2 w hw
      · rw [List.mem_singleton] at hw
        subst hw
        exact enumVal_fits hX hv
  | _ => cases h

theorem parsedExample_new (kd : Kind) : ParsedExample kd (Example.new kd) where
  kind := rfl
  value := fun v h => by cases h
  annotations := ⟨rfl, List.nodup_nil, fun e h => (nomatch h), fun e h => (nomatch h)⟩
  extraFlag := rfl
  extra := List.nodup_nil

theorem Example.assign_parsed {X : Xyml} (hX : Lawful X) {kd : Kind} {k v : Node} {e e' : Example}
    (he : ParsedExample kd e) (h : e.assign X k v = .ok e') : ParsedExample kd e' := by
  have hextra : ∀ {e'}, e.putExtra X k v = .ok e' → ParsedExample kd e' := by
    intro e' h
    obtain ⟨s, _, rfl⟩ := Res.map_eq_ok.mp h
    exact ⟨he.kind, he.value, he.annotations, he.extraFlag, distinct_put _ _ he.extra⟩
  unfold Example.assign at h
  split at h
  · exact hextra h
  · split at h
    · cases h
    · rename_i c hc
      split at h
      · rename_i hp
        obtain ⟨a, ha, rfl⟩ := Res.map_eq_ok.mp h
        exact ⟨he.kind, he.value, he.annotations.put (by rw [← hp]; exact hc) ha, he.extraFlag,
          he.extra⟩
      · split at h
        · obtain ⟨_, _, rfl⟩ := Res.map_eq_ok.mp h
          exact ⟨he.kind, he.value, he.annotations, he.extraFlag, he.extra⟩
        · split at h
          · obtain ⟨_, _, rfl⟩ := Res.map_eq_ok.mp h
            exact ⟨he.kind, he.value, he.annotations, he.extraFlag, he.extra⟩
          · split at h
            · obtain ⟨_, _, rfl⟩ := Res.map_eq_ok.mp h
              exact ⟨he.kind, he.value, he.annotations, he.extraFlag, he.extra⟩
            · split at h
              · obtain ⟨x, hx, rfl⟩ := Res.map_eq_ok.mp h
                refine ⟨he.kind, ?_, he.annotations, he.extraFlag, he.extra⟩
                intro w hw
                cases hw
                rw [he.kind] at hx
                exact exampleVal_fits hX hx
              · exact hextra h

theorem Example.unmarshal_parsed {X : Xyml} (hX : Lawful X) {kd : Kind} {v : Node}
    {e e' : Example} (he : ParsedExample kd e) (h : e.unmarshal X v = .ok e') :
    ParsedExample kd e' := by
  unfold Example.unmarshal at h
  split at h
  · exact forPairs_inv_mem (I := ParsedExample kd)
      (fun p _ s s' hI hs => Example.assign_parsed hX hI hs) he h
  · obtain ⟨x, hx, rfl⟩ := Res.map_eq_ok.mp h
    refine ⟨he.kind, ?_, he.annotations, he.extraFlag, he.extra⟩
    intro w hw
    cases hw
    rw [he.kind] at hx
    exact exampleVal_fits hX hx

theorem loadExample_parsed {X : Xyml} (hX : Lawful X) {kd : Kind} {v : Node} {e : Example}
    (h : loadExample X kd v = .ok e) : kd ≠ .any ∧ ParsedExample kd e := by
  unfold loadExample at h
  obtain ⟨e0, h0, h1⟩ := Res.bind_eq_ok.mp h
  have : kd ≠ .any ∧ e0 = Example.new kd := by
    cases kd <;> first | (cases h0; exact ⟨by decide, rfl⟩) | cases h0
  rw [this.2] at h1
  exact ⟨this.1, Example.unmarshal_parsed hX (parsedExample_new kd) h1⟩

theorem loadExamples_parsed {X : Xyml} (hX : Lawful X) {kd : Kind} {v : Node}
    {m m' : OM String Example} (h : loadExamples X kd m v = .ok m') (hd : Distinct m.ents)
    (hm : ∀ e ∈ m.ents, ParsedExample kd e.2) :
    m'.omap = m.omap ∧ Distinct m'.ents ∧ ∀ e ∈ m'.ents, ParsedExample kd e.2 := by
  cases v with
  | map ps =>
    refine forPairs_inv_mem (I := fun x => x.omap = m.omap ∧ Distinct x.ents ∧
      ∀ e ∈ x.ents, ParsedExample kd e.2) ?_ ⟨rfl, hd, hm⟩ h
    intro p _ s s' hI hs
    obtain ⟨k, _, h2⟩ := Res.bind_eq_ok.mp hs
    obtain ⟨e, he, rfl⟩ := Res.map_eq_ok.mp h2
    refine ⟨hI.1, distinct_put _ _ hI.2.1, ?_⟩
    intro x hx
    rcases mem_put hx with hx | rfl
    · exact hI.2.2 x hx
    · exact Example.unmarshal_parsed hX (parsedExample_new kd) he
  | _ => cases h

theorem loadTypes_parsed {X : Xyml} {v : Node} {m m' : OM String DT} {P : DT → Prop}
    (h : loadTypes X v m = .ok m')
    (hP : ∀ n t, sizeOf n < sizeOf v → hat X n = .ok t → P t) (hd : Distinct m.ents)
    (hm : ∀ e ∈ m.ents, P e.2) :
    m'.omap = m.omap ∧ Distinct m'.ents ∧ ∀ e ∈ m'.ents, P e.2 := by
  cases v with
  | map ps =>
    have h : loadTypesL X ps m = .ok m' := h
    rw [loadTypesL_eq] at h
    refine forPairs_inv_mem (I := fun x => x.omap = m.omap ∧ Distinct x.ents ∧
      ∀ e ∈ x.ents, P e.2) ?_ ⟨rfl, hd, hm⟩ h
    intro p hp s s' hI hs
    obtain ⟨t, ht, _, rfl⟩ := loadType_ok hs
    refine ⟨hI.1, distinct_put _ _ hI.2.1, ?_⟩
    intro x hx
    rcases mem_put hx with hx | rfl
    · exact hI.2.2 x hx
    · exact hP _ _ (size_entry hp) ht
  | _ => unfold loadTypes at h; cases h

theorem loadProps_parsed {X : Xyml} {v : Node} {m m' : OM String DT} {P : DT → Prop}
    (h : loadProps X v m = .ok m')
    (hP : ∀ n t, sizeOf n < sizeOf v → hat X n = .ok t → P t) (hd : Distinct m.ents)
    (hm : ∀ e ∈ m.ents, e.2.isProperty = true ∧ P e.2) :
    m'.omap = m.omap ∧ Distinct m'.ents ∧ ∀ e ∈ m'.ents, e.2.isProperty = true ∧ P e.2 := by
  cases v with
  | map ps =>
    have h : loadPropsL X ps m = .ok m' := h
    rw [loadPropsL_eq] at h
    refine forPairs_inv_mem (I := fun x => x.omap = m.omap ∧ Distinct x.ents ∧
      ∀ e ∈ x.ents, e.2.isProperty = true ∧ P e.2) ?_ ⟨rfl, hd, hm⟩ h
    intro p hp s s' hI hs
    obtain ⟨t, ht, _, hpr, rfl⟩ := loadProp_ok hs
    refine ⟨hI.1, distinct_put _ _ hI.2.1, ?_⟩
    intro x hx
    rcases mem_put hx with hx | rfl
    · exact hI.2.2 x hx
    · exact ⟨hpr, hP _ _ (size_entry hp) ht⟩
  | _ => unfold loadProps at h; cases h

theorem loadFacets_parsed {X : Xyml} {v : Node} {m m' : OM String (OM String DT)}
    {P : DT → Prop} (h : loadFacets X v m = .ok m')
    (hP : ∀ n t, sizeOf n < sizeOf v → hat X n = .ok t → P t) (hd : Distinct m.ents)
    (hm : ∀ f ∈ m.ents, f.2.omap = true ∧ Distinct f.2.ents ∧ ∀ e ∈ f.2.ents, P e.2) :
    m'.omap = m.omap ∧ Distinct m'.ents ∧
      ∀ f ∈ m'.ents, f.2.omap = true ∧ Distinct f.2.ents ∧ ∀ e ∈ f.2.ents, P e.2 := by
  cases v with
  | map ps =>
    have h : loadFacetsL X ps m = .ok m' := h
    rw [loadFacetsL_eq] at h
    refine forPairs_inv_mem (I := fun x => x.omap = m.omap ∧ Distinct x.ents ∧
      ∀ f ∈ x.ents, f.2.omap = true ∧ Distinct f.2.ents ∧ ∀ e ∈ f.2.ents, P e.2) ?_
      ⟨rfl, hd, hm⟩ h
    intro p hp s s' hI hs
    obtain ⟨f, hf, _, rfl⟩ := loadFacet_ok hs
    refine ⟨hI.1, distinct_put _ _ hI.2.1, ?_⟩
    intro x hx
    rcases mem_put hx with hx | rfl
    · exact hI.2.2 x hx
    · exact loadTypes_parsed hf (fun n t hn => hP n t (Nat.lt_trans hn (size_entry hp)))
        List.nodup_nil (fun e he => by cases he)
  | _ => unfold loadFacets at h; cases h

/-! ### Types -/

/-- What the parser guarantees about one facet (auxiliary). -/
def FacetOK (kd : Kind) (P : DT → Prop) : (f : Facet) → f.Ty → Prop
  | .extra, x => ParsedExtra kd x
  | .annotations, x => ParsedAnns true x
  | .enum, o => ∀ l, o = some l → l ≠ [] ∧ ∀ v ∈ l, FitsEnum kd v
  | .example, o => ∀ e, o = some e → kd ≠ .any ∧ ParsedExample kd e
  | .examples, m => OM.omap m = false ∧ Distinct (OM.ents m) ∧ ∀ e ∈ OM.ents m, ParsedExample kd e.2
  | .facets, m => OM.omap m = true ∧ Distinct (OM.ents m) ∧
      ∀ f ∈ OM.ents m, f.2.omap = true ∧ Distinct f.2.ents ∧ ∀ e ∈ f.2.ents, P e.2
  | .properties, m => OM.omap m = false ∧ Distinct (OM.ents m) ∧ (OM.ents m ≠ [] → kd = .object) ∧
      ∀ e ∈ OM.ents m, e.2.isProperty = true ∧ P e.2
  | .items, o => (o ≠ none → kd = .array) ∧ ∀ t, o = some t → P t
  | .minimum, b => ∀ n, b = Bound.int (some n) → IsInt64 n
  | .maximum, b => ∀ n, b = Bound.int (some n) → IsInt64 n
  | _, _ => True

theorem facetStep_ok {X : Xyml} (hX : Lawful X) {kd : Kind} {P : DT → Prop} {k v : Node}
    {f : Facet} {x y : f.Ty} (hf : facetOf kd (k, v) = f) (h : facetStep X kd k v f x = .ok y)
    (hP : ∀ n t, sizeOf n ≤ sizeOf v → hat X n = .ok t → P t) (hx : FacetOK kd P f x) :
    FacetOK kd P f y := by
  have hhas := facetOf_has kd (k, v)
  rw [hf] at hhas
  cases f with
  | extra =>
    have hk := facetOf_extra_iff.mp hf
    simp only [isExtra, Bool.and_eq_true, Bool.not_eq_true', List.contains_eq_mem,
      decide_eq_false_iff_not] at hk
    simp only [facetStep] at h
    split at h
    · cases h
    · cases h
      have hx : ParsedExtra kd x := hx
      refine (⟨hx.omap, distinct_put _ _ hx.distinct, ?_⟩ : ParsedExtra kd (OM.put x _ v))
      intro p hp
      rcases mem_put hp with hp | rfl
      · exact hx.keys p hp
      · exact ⟨_, rfl, hk.1⟩
  | annotations =>
    have hk := (facetOf_annotations_iff.mp hf).2
    obtain ⟨a, ha, rfl⟩ := Res.map_eq_ok.mp h
    refine Spec.ParsedAnns.put hx ?_ ha
    simp only [startsWith, Bool.and_eq_true, beq_iff_eq] at hk
    exact hk.2
  | enum => exact loadEnum_parsed hX h hx
  | «example» =>
    obtain ⟨e, he, rfl⟩ := Res.map_eq_ok.mp h
    intro e' he'
    cases he'
    exact loadExample_parsed hX he
  | examples =>
    obtain ⟨h1, h2, h3⟩ := hx
    obtain ⟨h4, h5, h6⟩ := loadExamples_parsed hX h h2 h3
    exact ⟨h4.trans h1, h5, h6⟩
  | facets =>
    obtain ⟨h1, h2, h3⟩ := hx
    obtain ⟨h4, h5, h6⟩ := loadFacets_parsed h (fun n t hn => hP n t (Nat.le_of_lt hn)) h2 h3
    exact ⟨h4.trans h1, h5, h6⟩
  | properties =>
    obtain ⟨h1, h2, h3, h7⟩ := hx
    obtain ⟨h4, h5, h6⟩ := loadProps_parsed h (fun n t hn => hP n t (Nat.le_of_lt hn)) h2 h7
    refine ⟨h4.trans h1, h5, fun _ => ?_, h6⟩
    cases kd <;> first | rfl | (exact absurd hhas (by decide))
  | items =>
    obtain ⟨t, ht, rfl⟩ := Res.map_eq_ok.mp h
    refine ⟨fun _ => ?_, fun t' ht' => by cases ht'; exact hP _ _ (Nat.le_refl _) ht⟩
    cases kd <;> first | rfl | (exact absurd hhas (by decide))
  | minimum =>
    intro n hn
    subst hn
    simp only [facetStep] at h
    split at h
    · obtain ⟨i, hi, he⟩ := Res.map_eq_ok.mp h
      cases he
      exact asInt_range hX hi
    · obtain ⟨i, hi, he⟩ := Res.map_eq_ok.mp h
      cases he
  | maximum =>
    intro n hn
    subst hn
    simp only [facetStep] at h
    split at h
    · obtain ⟨i, hi, he⟩ := Res.map_eq_ok.mp h
      cases he
      exact asInt_range hX hi
    · obtain ⟨i, hi, he⟩ := Res.map_eq_ok.mp h
      cases he
  | _ => exact trivial

theorem facetOK_new (kd : Kind) (P : DT → Prop) (s : String) (f : Facet) :
    FacetOK kd P f (look f ((DT.new kd).setSchema s)) := by
  have he : ∀ b, ParsedExtra kd (⟨[], b⟩ : OM Scalar Node) ∨ b = false := by
    intro b
    cases b
    · exact .inr rfl
    · exact .inl ⟨rfl, List.nodup_nil, fun p hp => by cases hp⟩
  cases f with
  | extra =>
    have : look .extra ((DT.new kd).setSchema s) = (⟨[], true⟩ : OM Scalar Node) := by
      cases kd <;> rfl
    rw [this]
    exact (he true).resolve_right (by decide)
  | annotations =>
    have : look .annotations ((DT.new kd).setSchema s) = (⟨[], true⟩ : OM String Ann) := by
      cases kd <;> rfl
    rw [this]
    exact ⟨rfl, List.nodup_nil, fun p hp => (nomatch hp), fun p hp => (nomatch hp)⟩
  | enum =>
    have : look .enum ((DT.new kd).setSchema s) = (none : Option (List Val)) := by
      cases kd <;> rfl
    rw [this]
    intro l hl; cases hl
  | «example» =>
    have : look .example ((DT.new kd).setSchema s) = (none : Option Example) := by
      cases kd <;> rfl
    rw [this]
    intro l hl; cases hl
  | examples =>
    have : look .examples ((DT.new kd).setSchema s) = (⟨[], false⟩ : OM String Example) := by
      cases kd <;> rfl
    rw [this]
    exact ⟨rfl, List.nodup_nil, fun p hp => by cases hp⟩
  | facets =>
    have : look .facets ((DT.new kd).setSchema s) = (⟨[], true⟩ : OM String (OM String DT)) := by
      cases kd <;> rfl
    rw [this]
    exact ⟨rfl, List.nodup_nil, fun p hp => by cases hp⟩
  | properties =>
    have : look .properties ((DT.new kd).setSchema s) = (⟨[], false⟩ : OM String DT) := by
      cases kd <;> rfl
    rw [this]
    exact ⟨rfl, List.nodup_nil, fun h => absurd rfl h, fun p hp => by cases hp⟩
  | items =>
    have : look .items ((DT.new kd).setSchema s) = (none : Option DT) := by
      cases kd <;> rfl
    rw [this]
    exact ⟨fun h => absurd rfl h, fun t ht => by cases ht⟩
  | minimum => intro n hn; cases kd <;> cases hn
  | maximum => intro n hn; cases kd <;> cases hn
  | _ => exact trivial

theorem parsed_of_facets {t : DT} (h : ∀ f, FacetOK t.kind Parsed f (look f t))
    (hd : dflt t = none) : Parsed t := by
  cases t with
  | basic i s x => exact .basic (h .extra)
  | ext g b fs ps it =>
    have h1 : ParsedExtra b.kind g.extra := h .extra
    have h2 : ParsedAnns true g.annotations := h .annotations
    have h3 : ∀ l, g.enum = some l → l ≠ [] ∧ ∀ v ∈ l, FitsEnum b.kind v := h .enum
    have h4 : ∀ e, g.example = some e → b.kind ≠ .any ∧ ParsedExample b.kind e := h .example
    obtain ⟨h5, h6, h7⟩ : g.examples.omap = false ∧ Distinct g.examples.ents ∧
      ∀ e ∈ g.examples.ents, ParsedExample b.kind e.2 := h .examples
    obtain ⟨h8, h9, h10⟩ : fs.omap = true ∧ Distinct fs.ents ∧
      ∀ f ∈ fs.ents, f.2.omap = true ∧ Distinct f.2.ents ∧ ∀ e ∈ f.2.ents, Parsed e.2 := h .facets
    obtain ⟨h11, h12, h13, h14⟩ : ps.omap = false ∧ Distinct ps.ents ∧
      (ps.ents ≠ [] → b.kind = .object) ∧ ∀ e ∈ ps.ents, e.2.isProperty = true ∧ Parsed e.2 :=
      h .properties
    obtain ⟨h15, h16⟩ : (it ≠ none → b.kind = .array) ∧ ∀ t, it = some t → Parsed t := h .items
    refine .ext ⟨h1, h2, hd, h3, h4, h5, h6, h7⟩ ?_ h8 h9 (fun f hf => ⟨(h10 f hf).1, (h10 f hf).2.1⟩)
      (fun f hf => (h10 f hf).2.2) h11 h12 h13 (fun e he => (h14 e he).1) (fun e he => (h14 e he).2)
      h15 h16
    cases b with
    | integer f =>
      refine ⟨fun n hn => ?_, fun n hn => ?_⟩
      · have : ∀ n, Bound.int f.minimum = Bound.int (some n) → IsInt64 n := h .minimum
        exact this n (by rw [hn])
      · have : ∀ n, Bound.int f.maximum = Bound.int (some n) → IsInt64 n := h .maximum
        exact this n (by rw [hn])
    | _ => exact trivial

/-- **Everything the parser returns is `Parsed`.** -/
theorem hat_parsed {X : Xyml} (hX : Lawful X) {n : Node} {t : DT} (h : hat X n = .ok t) :
    Parsed t := by
  generalize hs : sizeOf n = sz
  induction sz using Nat.strongRecOn generalizing n t with
  | ind sz ih =>
    refine parsed_of_facets ?_ (hat_dflt h)
    cases n with
    | scalar tag v =>
      have : ∃ s, t = (DT.new t.kind).setSchema s := by
        unfold hat at h
        split at h
        · cases h
          refine ⟨v, ?_⟩
          rw [(typeToKind_spec v).1]
          exact typeToKind_eq v
        · split at h
          · cases h; exact ⟨v, rfl⟩
          · cases h
      obtain ⟨s, hs⟩ := this
      intro f
      generalize hk : t.kind = kd at hs
      rw [hs]
      exact facetOK_new kd _ s f
    | seq tag ns => unfold hat at h; cases h
    | map ps =>
      obtain ⟨t0, h0, _, _, h1, hk⟩ := hat_map_ok h
      obtain ⟨s, hs0⟩ := siftType_form h0
      rw [assignAll_eq] at h1
      have := forPairs_inv_mem (f := fun k v t => assign X (k, v) t)
        (I := fun u => u.kind = t.kind ∧ ∀ f, FacetOK t.kind Parsed f (look f u)) (ps := ps) ?_
        (s := t0) (s' := t) ⟨hk.symm, ?_⟩ h1
      · exact this.2
      · intro p hp s s' hI hstep
        refine ⟨(assign_kind hstep).trans hI.1, ?_⟩
        obtain ⟨h2, h3⟩ := assign_ok hI.1 hstep
        intro f
        by_cases hf : f = facetOf t.kind (p.1, p.2)
        · subst hf
          refine facetStep_ok hX rfl h2 ?_ (hI.2 _)
          intro n u hn hu
          refine ih (sizeOf n) ?_ hu rfl
          rw [← hs]
          exact Nat.lt_of_le_of_lt hn (size_entry hp)
        · rw [h3 f hf]
          exact hI.2 f
      · intro f
        rw [hs0, ← hk]
        exact facetOK_new _ _ s f

theorem OM.eq_nil {K V : Type} {m : OM K V} {b : Bool} (h : m.ents = []) (hb : m.omap = b) :
    m = ⟨[], b⟩ := by
  cases m
  cases h
  cases hb
  rfl

theorem Spec.Parsed.plain {t : DT} (hp : Parsed t) (hm : Mild t) : Plain t := by
  induction hp with
  | @basic i s x hx =>
    have hx' : x = ⟨x.ents, true⟩ := by cases x; cases hx.omap; rfl
    cases hm with
    | nil =>
      rw [hx']
      refine .nil ⟨hx.distinct, fun p hp => ?_⟩
      obtain ⟨s, h1, h2⟩ := hx.keys p hp
      exact ⟨s, h1, h2, .inl rfl⟩
    | incl => rw [hx']; exact .incl
  | @ext h b fs ps it h1 h2 h3 h4 h5 h6 h7 h8 h9 h10 h11 h12 h13 ih1 ih2 ih3 =>
    cases hm with
    | ext m1 m2 m3 m4 m5 m6 m7 m8 m9 m10 =>
      rw [OM.eq_nil m8 h3, show ps = ⟨ps.ents, false⟩ by cases ps; cases h7; rfl]
      refine .ext ⟨m1, ⟨h1.extra.distinct, ?_⟩, h1.extra.omap, OM.eq_nil m4 h1.annotations.omap, m5,
        h1.dflt, h1.enum, m6, OM.eq_nil m7 h1.examplesFlag⟩ m2 h9 h8 h10
        (fun e he => ih2 e he (m9 e he)) h12 (fun t ht => ih3 t ht (m10 t ht))
      intro p hp
      obtain ⟨s, k1, k2⟩ := h1.extra.keys p hp
      exact ⟨s, k1, k2, .inr (m3 p hp s k1)⟩

end Verif.Doc
