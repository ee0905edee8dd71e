import Verif.Props.ApiParse
import Verif.Doc.Parsed
import Verif.Doc.LiveType
import Verif.Doc.SizesSpec

/-! # C88: what is read is no larger than the document -/

namespace Verif.Props
open Verif Verif.Doc Verif.Doc.Spec

/-! ### Basic facts -/

theorem nodeWeight_pos (n : Node) : 1 ≤ nodeWeight n := by
  cases n <;> simp [nodeWeight]

theorem typeEnts_sum (es : List (String × DT)) :
    typeEntsWeight es = (es.map fun e => 1 + typeWeight e.2).sum := by
  induction es with
  | nil => rfl
  | cons e es ih => obtain ⟨k, t⟩ := e; simp [typeEntsWeight, typeEntWeight, ih]

theorem types_eq (m : OM String DT) : typesWeight m = mapWeight typeWeight m := by
  obtain ⟨es, b⟩ := m
  exact typeEnts_sum es

theorem facets_eq (m : OM String (OM String DT)) :
    facetsWeight m = mapWeight (mapWeight typeWeight) m := by
  obtain ⟨es, b⟩ := m
  simp only [facetsWeight, mapWeight]
  induction es with
  | nil => rfl
  | cons e es ih =>
    obtain ⟨k, m⟩ := e
    simp only [facetEntsWeight, facetEntWeight, List.map_cons, List.sum_cons, ih, types_eq]
    rfl

theorem items_eq (o : Option DT) : itemsWeight o = optWeight typeWeight o := by
  cases o <;> rfl

theorem mapWeight_put {K V : Type} [DecidableEq K] (w : V → Nat) (m : OM K V) (k : K) (v : V) :
    mapWeight w (m.put k v) ≤ mapWeight w m + 1 + w v := by
  have h : ∀ es : List (K × V), ((es.filter fun e => !(e.1 == k)).map fun e => 1 + w e.2).sum ≤
      (es.map fun e => 1 + w e.2).sum := by
    intro es
    induction es with
    | nil => simp
    | cons e es ih =>
      simp only [List.filter_cons]
      split <;> simp only [List.map_cons, List.sum_cons] <;> omega
  have := h m.ents
  simp only [mapWeight, OM.put, List.map_append, List.sum_append, List.map_cons, List.map_nil,
    List.sum_cons, List.sum_nil]
  omega

theorem flag_le (b : Bool) : flag b ≤ 1 := by cases b <;> decide

theorem flag_eq (b : Bool) : flag b = min 1 b.toNat := by cases b <;> rfl

theorem listWeight_le {V : Type} (w : V → Nat) (l : Option (List V)) :
    listWeight w l ≤ 1 + ((l.getD []).map w).sum := by
  simp only [listWeight, flag_eq]
  omega

theorem listWeight_ge {V : Type} (w : V → Nat) (l : Option (List V)) :
    ((l.getD []).map w).sum ≤ listWeight w l := by
  simp only [listWeight]
  omega

theorem partWeight_le {K V : Type} (w : V → Nat) (m : OM K V) :
    partWeight w m ≤ 1 + mapWeight w m := by
  simp only [partWeight, flag_eq]
  omega

theorem partWeight_ge {K V : Type} (w : V → Nat) (m : OM K V) :
    mapWeight w m ≤ partWeight w m := by
  simp only [partWeight]
  omega

/-- A dictionary in use gains no more than its entries and one. -/
theorem weight_part {K V : Type} {w : V → Nat} {m m' : OM K V} {n : Nat}
    (h : mapWeight w m' + 1 ≤ mapWeight w m + n) : partWeight w m' ≤ partWeight w m + n := by
  have := partWeight_le w m'
  have := partWeight_ge w m
  omega

theorem listWeight_push {V : Type} (w : V → Nat) (l : Option (List V)) (x : V) :
    listWeight w (some (l.getD [] ++ [x])) ≤ 1 + listWeight w l + w x := by
  have h1 := listWeight_le w (some (l.getD [] ++ [x]))
  have h2 := listWeight_ge w l
  simp only [Option.getD_some, List.map_append, List.sum_append, List.map_cons, List.map_nil,
    List.sum_cons, List.sum_nil] at h1
  omega

theorem listWeight_ones {V : Type} (l : List V) :
    listWeight (fun _ => 1) (some l) = 1 + l.length := by
  simp only [listWeight, Option.getD_some]
  have : (l.map fun _ => 1).sum = l.length := by
    induction l with
    | nil => rfl
    | cons x l ih => simp only [List.map_cons, List.sum_cons, List.length_cons, ih]; omega
  rw [this]
  rfl

theorem weight_pairs {σ : Type} {f : Node → Node → σ → Res σ} {μ : σ → Nat} :
    ∀ ps s s', (∀ p ∈ ps, ∀ s s', f p.1 p.2 s = .ok s' →
        μ s' ≤ μ s + nodeWeight p.1 + nodeWeight p.2) →
      forPairs f ps s = .ok s' → μ s' ≤ μ s + pairsWeight ps := by
  intro ps
  induction ps with
  | nil => intro s s' _ h; cases h; simp [pairsWeight]
  | cons p ps ih =>
    intro s s' hf h
    obtain ⟨s1, h1, h2⟩ := Res.bind_eq_ok.mp h
    have a := hf p (by simp) s s1 h1
    have b := ih s1 s' (fun q hq => hf q (by simp [hq])) h2
    obtain ⟨k, v⟩ := p
    simp only [pairsWeight, pairWeight] at a b ⊢
    omega

theorem weight_map {σ : Type} {f : Node → Node → σ → Res σ} {μ : σ → Nat} {v : Node} {s s' : σ}
    (hf : ∀ p ∈ mapEntries v, ∀ s s', f p.1 p.2 s = .ok s' →
      μ s' ≤ μ s + nodeWeight p.1 + nodeWeight p.2)
    (h : mapForEach f v s = .ok s') : μ s' + 1 ≤ μ s + nodeWeight v := by
  cases v with
  | scalar a b => cases h
  | seq a b => cases h
  | map ps =>
    have := weight_pairs (f := f) (μ := μ) ps s s' hf h
    simp only [nodeWeight]
    omega

theorem weight_seq {σ : Type} {f : Node → σ → Res σ} {μ : σ → Nat} {v : Node} {s s' : σ}
    (hf : ∀ n s s', f n s = .ok s' → μ s' ≤ μ s + nodeWeight n)
    (h : seqForEach f v s = .ok s') : μ s' + 1 ≤ μ s + nodeWeight v := by
  cases v with
  | scalar a b => cases h
  | map a => cases h
  | seq a ns =>
    have : ∀ ns s, forItems f ns s = .ok s' → μ s' ≤ μ s + nodesWeight ns := by
      intro ns
      induction ns with
      | nil => intro s h; cases h; simp [nodesWeight]
      | cons n ns ih =>
        intro s h
        obtain ⟨s1, h1, h2⟩ := Res.bind_eq_ok.mp h
        have a := hf n s s1 h1
        have b := ih s1 h2
        simp only [nodesWeight]
        omega
    have := this ns s h
    simp only [nodeWeight]
    omega

/-- A loader of a dictionary. -/
theorem weight_loader {V : Type} {g : Node → Res V} {w : V → Nat} {m m' : OM String V} {v : Node}
    (hg : ∀ p ∈ mapEntries v, ∀ x, g p.2 = .ok x → w x ≤ nodeWeight p.2)
    (h : mapForEach (fun k v m => (asString k).bind fun s => (g v).map fun x => m.put s x) v m =
      .ok m') : mapWeight w m' + 1 ≤ mapWeight w m + nodeWeight v := by
  refine weight_map (μ := mapWeight w) (fun p hp s s' hs => ?_) h
  obtain ⟨k, _, h2⟩ := Res.bind_eq_ok.mp hs
  obtain ⟨x, hx, rfl⟩ := Res.map_eq_ok.mp h2
  have := mapWeight_put w s k x
  have := hg p hp x hx
  have := nodeWeight_pos p.1
  omega

theorem weight_untyped {m m' : OM String Node} {v : Node} (h : loadUntyped m v = .ok m') :
    mapWeight nodeWeight m' + 1 ≤ mapWeight nodeWeight m + nodeWeight v := by
  refine weight_map (μ := mapWeight nodeWeight) (fun p _ s s' hs => ?_) h
  obtain ⟨x, hx, rfl⟩ := Res.map_eq_ok.mp hs
  have := mapWeight_put nodeWeight s x p.2
  have := nodeWeight_pos p.1
  omega

theorem weight_ann {a : Ann} {v : Node} (h : loadAnn v = .ok a) :
    mapWeight nodeWeight a + 1 ≤ nodeWeight v := by
  have := weight_untyped (m := OM.empty true) h
  simpa [mapWeight, OM.empty] using this

theorem weight_stringList {l : List String} {v : Node} (h : asStringList v = .ok l) :
    l.length + 1 ≤ nodeWeight v := by
  have := weight_seq (μ := List.length) (fun n s s' hs => by
    obtain ⟨x, hx, rfl⟩ := Res.map_eq_ok.mp hs
    have := nodeWeight_pos n
    simp; omega) h
  simpa using this

theorem weight_strings {m m' : OM String String} {v : Node} (h : loadStrings m v = .ok m') :
    mapWeight (fun _ => 0) m' + 1 ≤ mapWeight (fun _ => 0) m + nodeWeight v :=
  weight_loader (g := asString) (w := fun _ => 0) (fun _ _ _ _ => Nat.zero_le _) h

/-! ### Examples, XML settings, enums -/

theorem weight_exampleVal {X : Xyml} {kd : Kind} {v : Node} {x : Val}
    (h : exampleVal X kd v = .ok x) : valWeight x ≤ nodeWeight v := by
  have hp := nodeWeight_pos v
  cases kd <;> simp only [exampleVal] at h <;> first
    | (obtain ⟨y, _, rfl⟩ := Res.map_eq_ok.mp h; exact hp)
    | (cases h; exact Nat.le_refl _)
    | (split at h
       · cases h; exact Nat.le_refl _
       · cases h)

theorem weight_enumVal {X : Xyml} {kd : Kind} {v : Node} {x : Val}
    (h : enumVal X kd v = .ok x) : valWeight x ≤ nodeWeight v := by
  have hp := nodeWeight_pos v
  cases kd <;> simp only [enumVal] at h <;> first
    | (obtain ⟨y, _, rfl⟩ := Res.map_eq_ok.mp h; exact hp)
    | (cases h; exact Nat.le_refl _)
    | (split at h
       · cases h; exact hp
       · cases h)

theorem weight_enum {X : Xyml} {kd : Kind} {l l' : Option (List Val)} {v : Node}
    (h : loadEnum X kd l v = .ok l') :
    listWeight valWeight l' ≤ listWeight valWeight l + nodeWeight v := by
  have h1 := weight_seq (μ := fun l : Option (List Val) => ((l.getD []).map valWeight).sum)
    (fun n s s' hs => by
      obtain ⟨x, hx, rfl⟩ := Res.map_eq_ok.mp hs
      have := weight_enumVal hx
      simp only [pushEnum, Option.getD_some, List.map_append, List.sum_append, List.map_cons,
        List.map_nil, List.sum_cons, List.sum_nil]
      omega) h
  have := listWeight_le valWeight l'
  have := listWeight_ge valWeight l
  omega

theorem weight_xml_assign {X : Xyml} {k v : Node} {x x' : XML} (h : XML.assign X k v x = .ok x') :
    xmlWeight x' ≤ xmlWeight x + nodeWeight k + nodeWeight v := by
  have hk := nodeWeight_pos k
  unfold XML.assign at h
  split_ifs at h <;> obtain ⟨y, _, rfl⟩ := Res.map_eq_ok.mp h <;>
    simp only [xmlWeight, flag_eq]
  all_goals first
    | omega
    | (have := mapWeight_put nodeWeight x.extra y v; omega)

theorem weight_xml {X : Xyml} {v : Node} {x : XML} (h : loadXML X v = .ok x) :
    xmlWeight x + 1 ≤ nodeWeight v := by
  have := weight_map (μ := xmlWeight) (fun p _ s s' hs => weight_xml_assign hs) h
  simp only [show xmlWeight XML.new = 0 from rfl] at this
  omega

theorem weight_example_assign {X : Xyml} {k v : Node} {e e' : Example}
    (h : Example.assign X k v e = .ok e') :
    exampleWeight e' ≤ exampleWeight e + nodeWeight k + nodeWeight v := by
  have hk := nodeWeight_pos k
  have hx : ∀ e e' : Example, e.putExtra X k v = .ok e' →
      exampleWeight e' ≤ exampleWeight e + nodeWeight k + nodeWeight v := by
    intro e e' h
    obtain ⟨y, _, rfl⟩ := Res.map_eq_ok.mp h
    have := mapWeight_put nodeWeight e.extra y v
    simp only [exampleWeight]
    omega
  unfold Example.assign at h
  split at h
  · exact hx _ _ h
  split at h
  · cases h
  · split_ifs at h
    · obtain ⟨a, ha, rfl⟩ := Res.map_eq_ok.mp h
      have := mapWeight_put (mapWeight nodeWeight) e.annotations k.value a
      have := weight_ann ha
      simp only [exampleWeight]
      omega
    · obtain ⟨y, _, rfl⟩ := Res.map_eq_ok.mp h; simp only [exampleWeight, flag_eq]; omega
    · obtain ⟨y, _, rfl⟩ := Res.map_eq_ok.mp h; simp only [exampleWeight, flag_eq]; omega
    · obtain ⟨y, _, rfl⟩ := Res.map_eq_ok.mp h; simp only [exampleWeight, flag_eq]; omega
    · obtain ⟨y, hy, rfl⟩ := Res.map_eq_ok.mp h
      have := weight_exampleVal hy
      simp only [exampleWeight, Option.map_some, Option.getD_some]
      omega
    · exact hx _ _ h

/-- Loading an example into one in use. -/
theorem C88_example_load (X : Xyml) (v : Node) (e e' : Example)
    (h : e.unmarshal X v = .ok e') : exampleWeight e' ≤ exampleWeight e + nodeWeight v := by
  cases v with
  | map ps =>
    have := weight_map (f := Example.assign X) (v := .map ps) (μ := exampleWeight)
      (fun p _ s s' hs => weight_example_assign hs) h
    omega
  | scalar a b =>
    obtain ⟨y, hy, rfl⟩ := Res.map_eq_ok.mp h
    have := weight_exampleVal hy
    simp only [exampleWeight, Option.map_some, Option.getD_some]
    omega
  | seq a b =>
    obtain ⟨y, hy, rfl⟩ := Res.map_eq_ok.mp h
    have := weight_exampleVal hy
    simp only [exampleWeight, Option.map_some, Option.getD_some]
    omega

theorem weight_new_example {X : Xyml} {v : Node} {kd : Kind} {e : Example}
    (h : (Example.new kd).unmarshal X v = .ok e) : exampleWeight e ≤ nodeWeight v := by
  have h1 : exampleWeight (Example.new kd) = 1 := by cases kd <;> rfl
  cases v with
  | map ps =>
    have := weight_map (f := Example.assign X) (v := .map ps) (μ := exampleWeight)
      (fun p _ s s' hs => weight_example_assign hs) h
    omega
  | scalar a b =>
    obtain ⟨y, hy, rfl⟩ := Res.map_eq_ok.mp h
    exact weight_exampleVal hy
  | seq a b =>
    obtain ⟨y, hy, rfl⟩ := Res.map_eq_ok.mp h
    exact weight_exampleVal hy

/-- Non-vacuity: an example with a value, an annotation and an extra key. -/
example : ∃ e, (Example.new .string).unmarshal Xyml.std
    (.map [(.str "value", .str "a"), (.str "(n)", .map [(.str "k", .str "v")]),
      (.str "x", .seq "!!seq" [])]) = .ok e ∧ exampleWeight e = 6 := ⟨_, rfl, rfl⟩

theorem weight_examples {X : Xyml} {kd : Kind} {m m' : OM String Example} {v : Node}
    (h : loadExamples X kd m v = .ok m') :
    mapWeight exampleWeight m' + 1 ≤ mapWeight exampleWeight m + nodeWeight v := by
  refine weight_map (μ := mapWeight exampleWeight) (fun p _ s s' hs => ?_) h
  obtain ⟨k, _, h2⟩ := Res.bind_eq_ok.mp hs
  obtain ⟨x, hx, rfl⟩ := Res.map_eq_ok.mp h2
  have := mapWeight_put exampleWeight s k x
  have := weight_new_example hx
  have := nodeWeight_pos p.1
  omega

/-! ### Types -/

/-- What one facet of a type weighs, apart from plain facets. -/
def facetWeight : (f : Facet) → f.Ty → Nat
  | .enum, x => listWeight valWeight x
  | .example, x => optWeight exampleWeight x
  | .examples, x => partWeight exampleWeight x
  | .xml, x => optWeight xmlWeight x
  | .facets, x => partWeight (mapWeight typeWeight) x
  | .annotations, x => mapWeight (mapWeight nodeWeight) x
  | .extra, x => mapWeight nodeWeight x
  | .properties, x => partWeight typeWeight x
  | .items, x => optWeight typeWeight x
  | .fileTypes, x => listWeight (fun _ => 1) x
  | .discriminatorValue, x => optWeight nodeWeight x
  | _, _ => 0

/-- One for the plain facets. -/
def plainWeight : Facet → Nat
  | .enum | .example | .examples | .xml | .facets | .annotations | .extra | .properties | .items
  | .fileTypes | .discriminatorValue => 0
  | _ => 1

theorem listWeight_none {V : Type} (w : V → Nat) : listWeight w none = 0 := rfl

theorem optWeight_none {V : Type} (w : V → Nat) : optWeight w none = 0 := rfl

theorem mapWeight_empty {K V : Type} (w : V → Nat) (b : Bool) :
    mapWeight w (OM.empty b : OM K V) = 0 := rfl

theorem partWeight_empty {K V : Type} (w : V → Nat) (b : Bool) :
    partWeight w (OM.empty b : OM K V) = 0 := rfl

theorem typeWeight_set (f : Facet) (x : f.Ty) (t : DT) :
    typeWeight (t.setFacet f x) + facetWeight f (look f t) ≤
      typeWeight t + facetWeight f x + plainWeight f := by
  rcases t with ⟨i, a, e⟩ | ⟨h, b, fs, ps, it⟩
  · cases f <;> simp only [DT.setFacet, DT.setSchema, DT.onHdr, DT.onBody, DT.setFacets,
      DT.setExtra, DT.setProps, DT.setItems, facetWeight, look, DT.extra, typeWeight, enum,
      exampleOf, examplesMap, xml, facets, annotationMap, properties, items, fileTypes,
      discriminatorValue, body, listWeight_none, optWeight_none, mapWeight_empty,
      partWeight_empty] <;> omega
  · cases f <;> (try cases b) <;> simp only [DT.setFacet, DT.setSchema, DT.onHdr, DT.onBody,
      DT.setFacets, DT.setExtra, DT.setProps, DT.setItems, facetWeight, look, DT.extra, typeWeight,
      plainWeight, hdrWeight, bodyWeight, types_eq, facets_eq, items_eq, Body.onString, Body.onFile,
      Body.onArray, Body.onObject, Body.onNumber, Body.onInteger, Body.onDatetime, enum,
      exampleOf, examplesMap, xml, facets, annotationMap, properties, items, fileTypes,
      discriminatorValue, body, listWeight_none, optWeight_none, partWeight] <;> first
      | omega
      | (have := facets_eq x; omega)
      | (have := types_eq x; omega)
      | (have := items_eq x; omega)
      | grind [flag_le]

theorem weight_step {X : Xyml} {kd : Kind} {k v : Node}
    (ih : ∀ n, sizeOf n ≤ sizeOf v → ∀ t, hat X n = .ok t → typeWeight t ≤ nodeWeight n)
    (f : Facet) (x y : f.Ty) (h : facetStep X kd k v f x = .ok y) :
    facetWeight f y + plainWeight f ≤ facetWeight f x + 1 + nodeWeight v := by
  have hv := nodeWeight_pos v
  have hent : ∀ p ∈ mapEntries v, sizeOf p.2 ≤ sizeOf v := by
    intro p hp
    cases v with
    | map ps => exact Nat.le_of_lt (size_entry hp)
    | scalar a b => cases hp
    | seq a b => cases hp
  cases f <;> simp only [facetStep] at h <;> simp only [plainWeight] <;>
    try (simp only [facetWeight]; omega)
  case enum => have := weight_enum h; simp only [facetWeight]; omega
  case «example» =>
    obtain ⟨e, he, rfl⟩ := Res.map_eq_ok.mp h
    obtain ⟨e0, h0, h1⟩ := Res.bind_eq_ok.mp he
    have h2 : e0 = Example.new kd := by cases kd <;> cases h0 <;> rfl
    subst h2
    have := weight_new_example h1
    simp only [facetWeight, optWeight]
    omega
  case examples => have := weight_part (weight_examples h); simp only [facetWeight]; omega
  case xml =>
    obtain ⟨e, he, rfl⟩ := Res.map_eq_ok.mp h
    have := weight_xml he
    simp only [facetWeight, optWeight]
    omega
  case facets =>
    replace h := (loadFacets_eq X v x).symm.trans h
    have := weight_map (μ := mapWeight (mapWeight typeWeight)) (fun p hp s s' hs => ?_) h
    · have := weight_part this
      simp only [facetWeight]; omega
    simp only [loadFacet] at hs
    obtain ⟨a, _, h2⟩ := Res.bind_eq_ok.mp hs
    obtain ⟨m, hm, h3⟩ := Res.bind_eq_ok.mp h2
    cases h3
    rw [loadTypes_eq, loadType_form] at hm
    have h4 := weight_loader (w := typeWeight) (fun q hq x hx => ih q.2 (by
      have h5 := hent p hp
      have h6 : sizeOf q.2 ≤ sizeOf p.2 := by
        cases hp2 : p.2 with
        | map ps => rw [hp2] at hq; exact Nat.le_of_lt (size_entry hq)
        | scalar a b => rw [hp2] at hq; cases hq
        | seq a b => rw [hp2] at hq; cases hq
      omega) x hx) hm
    rw [mapWeight_empty] at h4
    have := mapWeight_put (mapWeight typeWeight) s a m
    have := nodeWeight_pos p.1
    omega
  case annotations =>
    obtain ⟨a, ha, rfl⟩ := Res.map_eq_ok.mp h
    have := weight_ann ha
    have := mapWeight_put (mapWeight nodeWeight) x k.value a
    simp only [facetWeight]
    omega
  case extra =>
    split at h
    · cases h
    · cases h
      have := mapWeight_put nodeWeight x (.str k.value) v
      simp only [facetWeight]
      omega
  case properties =>
    replace h := (loadProps_eq X v x).symm.trans h
    have := weight_map (μ := mapWeight typeWeight) (fun p hp s s' hs => ?_) h
    · have := weight_part this
      simp only [facetWeight]; omega
    simp only [loadProp] at hs
    obtain ⟨a, _, h2⟩ := Res.bind_eq_ok.mp hs
    obtain ⟨t, ht, h3⟩ := Res.bind_eq_ok.mp h2
    split at h3
    · cases h3
      have := ih p.2 (hent p hp) t ht
      have := mapWeight_put typeWeight s a t
      have := nodeWeight_pos p.1
      omega
    · cases h3
  case items =>
    obtain ⟨t, ht, rfl⟩ := Res.map_eq_ok.mp h
    have := ih v (Nat.le_refl _) t ht
    simp only [facetWeight, optWeight]
    omega
  case fileTypes =>
    obtain ⟨l, hl, rfl⟩ := Res.map_eq_ok.mp h
    have := weight_stringList hl
    have := listWeight_ones l
    simp only [facetWeight]
    omega
  case discriminatorValue =>
    cases h
    simp only [facetWeight, optWeight]
    omega

theorem weight_assign {X : Xyml} {k v : Node}
    (ih : ∀ n, sizeOf n ≤ sizeOf v → ∀ t, hat X n = .ok t → typeWeight t ≤ nodeWeight n)
    {t t' : DT} (h : assign X (k, v) t = .ok t') :
    typeWeight t' ≤ typeWeight t + nodeWeight k + nodeWeight v := by
  rw [assign_eq] at h
  obtain ⟨x, hx, rfl⟩ := Res.map_eq_ok.mp h
  have := weight_step ih _ _ _ hx
  have := typeWeight_set _ x t
  have := nodeWeight_pos k
  omega

theorem weight_bare {t : DT} (h : Bare t) : typeWeight t = 1 := by
  have hnil : ∀ {K V : Type} (w : V → Nat) (m : OM K V), m.ents = [] → mapWeight w m = 0 := by
    intro K V w m hm
    simp [mapWeight, hm]
  rcases t with ⟨i, a, e⟩ | ⟨⟨sc, ex, dn, de, an, xm, re, df, en, exa, exs⟩, b, fs, ps, it⟩
  · have h1 : e.ents = [] := h.extra
    simp only [typeWeight, hnil _ _ h1]
  · obtain ⟨h1, d1, d2, d3, h2, h3, h4, h5, h6, h7, h8, h9, h10, h11⟩ := h
    simp only [DT.extra, enum, dflt, exampleOf, examples, annotations, xml, facets, properties,
      items, body, displayName, description, required] at h1 d1 d2 d3 h2 h3 h4 h5 h6 h7 h8 h9 h10 h11
    subst d1 d2 d3 h2 h3 h4 h7 h10
    have hb : bodyWeight b = 0 := by
      have := h11 b rfl
      cases b <;> simp only [isDefaultBody] at this <;> simp only [bodyWeight, this] <;> rfl
    simp only [typeWeight, hdrWeight, types_eq, facets_eq, items_eq, hnil _ _ h1, hnil _ _ h5,
      hnil _ _ h6, hnil _ _ h8, hnil _ _ h9, hb, listWeight_none, optWeight_none, partWeight, h5, h8, h9]
    rfl

/-- C88: a parsed type weighs no more than the text it was read from. -/
theorem C88_type (X : Xyml) (n : Node) (t : DT) (h : hat X n = .ok t) :
    typeWeight t ≤ nodeWeight n := by
  have main : ∀ k n, sizeOf n < k → ∀ t, hat X n = .ok t → typeWeight t ≤ nodeWeight n := by
    intro k
    induction k with
    | zero => intro n hn; omega
    | succ k ih =>
      intro n hn t h
      cases n with
      | seq a b => simp [hat] at h
      | scalar a b =>
        simp only [hat] at h
        split at h
        · cases h
          rw [weight_bare]
          · simp [nodeWeight]
          · exact (typeToKind_spec b).2.2
        split at h
        · cases h; exact Nat.le_refl _
        · cases h
      | map ps =>
        obtain ⟨t0, _, _, hb, h1, _⟩ := hat_map_ok h
        rw [assignAll_eq] at h1
        have := weight_pairs (μ := typeWeight) ps t0 t (fun p hp s s' hs =>
          weight_assign (fun m hm => ih m (by have := size_entry hp; omega)) hs) h1
        rw [weight_bare hb] at this
        simpa [nodeWeight] using this
  exact main _ n (Nat.lt_succ_self _) t h

/-- Non-vacuity: an object type with a property, an extra key and an enum. -/
example : let n : Node := .map [(.str "type", .str "object"),
      (.str "properties", .map [(.str "a", .map [(.str "example", .str "x")])]),
      (.str "extra", .map [(.str "k", .str "v")]), (.str "enum", .seq "!!seq" [.str "e"])]
    nodeWeight n = 16 ∧ ∃ t, hat Xyml.std n = .ok t ∧ typeWeight t = 12 :=
  ⟨rfl, _, rfl, rfl⟩

/-- The bound is reached. -/
example : let n : Node := .map [(.str "extra", .map [(.str "k", .str "v")])]
    ∃ t, hat Xyml.std n = .ok t ∧ typeWeight t = nodeWeight n := ⟨_, rfl, rfl⟩

/-- C88: loading into a type in use adds no more than what is loaded. -/
theorem C88_type_load (X : Xyml) (n : Node) (t t' : DT) (h : t.unmarshal X n = .ok t') :
    typeWeight t' ≤ typeWeight t + nodeWeight n := by
  unfold DT.unmarshal at h
  split at h
  · cases h
    rcases t with ⟨i, a, e⟩ | ⟨h, b, fs, ps, it⟩ <;>
      simp only [DT.setSchema, typeWeight, hdrWeight] <;> omega
  split at h
  · cases h
  · rename_i ps _
    rw [assignAll_eq] at h
    have := weight_pairs (μ := typeWeight) ps t t' (fun p hp s s' hs =>
      weight_assign (fun m _ u hu => C88_type X m u hu) hs) h
    simp only [nodeWeight]
    omega
  · cases h

/-- Non-vacuity: loading two entries into a type in use. -/
example : ∃ t', (DT.new .string).unmarshal Xyml.std
    (.map [(.str "pattern", .str "a"), (.str "note", .seq "!!seq" [.str "x"])]) = .ok t' ∧
    typeWeight t' = 5 := ⟨_, rfl, rfl⟩

/-- C88: loading into XML settings in use adds no more than what is loaded. -/
theorem C88_xml_load (X : Xyml) (n : Node) (x x' : XML) (h : x.unmarshal X n = .ok x') :
    xmlWeight x' ≤ xmlWeight x + nodeWeight n := by
  have := weight_map (μ := xmlWeight) (fun p _ s s' hs => weight_xml_assign hs) h
  omega

/-- Non-vacuity: a second load adds an extra key. -/
example : ∃ x, ({ XML.new with name := some "n" } : XML).unmarshal Xyml.std
    (.map [(.str "prefix", .str "p"), (.str "x", .str "y")]) = .ok x ∧ xmlWeight x = 4 :=
  ⟨_, rfl, rfl⟩

/-! ### Documents -/

theorem weight_doc_assign {X : Xyml} {k v : Node} {d d' : Documentation}
    (h : d.assign X k v = .ok d') : docWeight d' ≤ docWeight d + nodeWeight k + nodeWeight v := by
  have hk := nodeWeight_pos k
  unfold Documentation.assign at h
  split_ifs at h
  · cases h; simp only [docWeight, flag_eq]; omega
  · cases h; simp only [docWeight, flag_eq]; omega
  · obtain ⟨y, _, rfl⟩ := Res.map_eq_ok.mp h
    have := mapWeight_put nodeWeight d.extra y v
    simp only [docWeight]
    omega

/-- C88: loading into a documentation entry in use adds no more than what is loaded. -/
theorem C88_documentation_load (X : Xyml) (n : Node) (d d' : Documentation)
    (h : d.unmarshal X n = .ok d') : docWeight d' ≤ docWeight d + nodeWeight n := by
  have := weight_map (μ := docWeight) (fun p _ s s' hs => weight_doc_assign hs) h
  omega

/-- Non-vacuity: an entry with an extra key. -/
example : ∃ d, Documentation.new.unmarshal Xyml.std
    (.map [(.str "title", .str "t"), (.str "x", .str "y")]) = .ok d ∧ docWeight d = 4 :=
  ⟨_, rfl, rfl⟩

theorem weight_docs {X : Xyml} {v : Node} {l l' : Option (List Documentation)}
    (h : seqForEach (pushDoc X) v l = .ok l') :
    listWeight docWeight l' ≤ listWeight docWeight l + nodeWeight v := by
  have h1 := weight_seq (μ := fun l : Option (List Documentation) =>
      ((l.getD []).map docWeight).sum) (fun n s s' hs => by
    obtain ⟨d, hd, rfl⟩ := Res.map_eq_ok.mp hs
    have := weight_map (μ := docWeight) (fun p _ s s' hs => weight_doc_assign hs) hd
    rw [show docWeight Documentation.new = 1 from rfl] at this
    simp only [Option.getD_some, List.map_append, List.sum_append, List.map_cons, List.map_nil,
      List.sum_cons, List.sum_nil]
    omega) h
  have := listWeight_le docWeight l'
  have := listWeight_ge docWeight l
  omega

theorem weight_types {X : Xyml} {v : Node} {m m' : OM String DT} (h : loadTypes X v m = .ok m') :
    mapWeight typeWeight m' + 1 ≤ mapWeight typeWeight m + nodeWeight v := by
  rw [loadTypes_eq, loadType_form] at h
  exact weight_loader (w := typeWeight) (fun p _ t ht => C88_type X p.2 t ht) h

theorem weight_anns {v : Node} {m m' : OM String Ann} (h : loadAnns m v = .ok m') :
    mapWeight (mapWeight nodeWeight) m' + 1 ≤ mapWeight (mapWeight nodeWeight) m + nodeWeight v := by
  refine weight_loader (g := loadAnn) (w := mapWeight nodeWeight) (fun p _ a ha => ?_) h
  have := weight_ann ha
  omega

/-- What one part of an API document weighs. -/
def apiPartWeight : (s : ApiSection) → s.Ty → Nat
  | .title, x => flag (bne (α := String) x "")
  | .version, x => flag (Option.isSome x)
  | .baseUri, x => flag (Option.isSome x)
  | .description, x => flag (Option.isSome x)
  | .protocols, x => listWeight (fun _ => 1) x
  | .mediaType, x => listWeight (fun _ => 1) x
  | .documentation, x => listWeight docWeight x
  | .securedBy, x => listWeight (fun _ => 1) x
  | .uses, x => partWeight (fun _ => 0) x
  | .securitySchemes, x => partWeight nodeWeight x
  | .baseUriParameters, x => partWeight nodeWeight x
  | .traits, x => partWeight nodeWeight x
  | .annotationTypes, x => partWeight nodeWeight x
  | .resourceTypes, x => partWeight nodeWeight x
  | .types, x => partWeight typeWeight x
  | .annotations, x => mapWeight (mapWeight nodeWeight) x
  | .resources, x => mapWeight nodeWeight x
  | .extra, x => mapWeight nodeWeight x

/-- What one part of a library weighs. -/
def libPartWeight : (s : LibSection) → s.Ty → Nat
  | .usage, x => flag (Option.isSome x)
  | .uses, x => partWeight (fun _ => 0) x
  | .types, x => partWeight typeWeight x
  | .resourceTypes, x => partWeight nodeWeight x
  | .traits, x => partWeight nodeWeight x
  | .securitySchemes, x => partWeight nodeWeight x
  | .annotations, x => mapWeight (mapWeight nodeWeight) x
  | .extra, x => mapWeight nodeWeight x

theorem apiWeight_set (s : ApiSection) (x : s.Ty) (a : APISpec) :
    apiWeight (a.setPart s x) + apiPartWeight s (apiGet s a) = apiWeight a + apiPartWeight s x := by
  cases s <;> simp only [apiWeight, APISpec.setPart, apiPartWeight, apiGet] <;> omega

theorem libWeight_set (s : LibSection) (x : s.Ty) (a : Library) :
    libWeight (a.setPart s x) + libPartWeight s (libGet s a) = libWeight a + libPartWeight s x := by
  cases s <;> simp only [libWeight, Library.setPart, libPartWeight, libGet] <;> omega

theorem weight_api_step {X : Xyml} {k v : Node} (s : ApiSection) (x y : s.Ty)
    (h : apiStep X k v s x = .ok y) :
    apiPartWeight s y ≤ apiPartWeight s x + 1 + nodeWeight v := by
  have hv := nodeWeight_pos v
  have hl : ∀ (l : List String), asStringList v = .ok l →
      listWeight (fun _ => 1) (some l) ≤ nodeWeight v := by
    intro l hl
    have := weight_stringList hl
    have := listWeight_ones l
    omega
  cases s <;> simp only [apiStep] at h <;> simp only [apiPartWeight] <;>
    try (simp only [flag_eq]; omega)
  case protocols => obtain ⟨l, h1, rfl⟩ := Res.map_eq_ok.mp h; have := hl l h1; omega
  case mediaType =>
    split at h
    · cases h
      have := listWeight_push (fun _ => 1) x v.value
      omega
    · obtain ⟨l, h1, rfl⟩ := Res.map_eq_ok.mp h; have := hl l h1; omega
  case documentation => have := weight_docs h; omega
  case securedBy => obtain ⟨l, h1, rfl⟩ := Res.map_eq_ok.mp h; have := hl l h1; omega
  case uses => have := weight_part (weight_strings h); omega
  case types => have := weight_part (weight_types h); omega
  case annotations =>
    obtain ⟨a, ha, rfl⟩ := Res.map_eq_ok.mp h
    have := weight_ann ha
    have := mapWeight_put (mapWeight nodeWeight) x k.value a
    omega
  case resources => cases h; exact mapWeight_put nodeWeight x k.value v
  case extra =>
    split at h
    · cases h
    · obtain ⟨y, _, rfl⟩ := Res.map_eq_ok.mp h
      exact mapWeight_put nodeWeight x y v
  all_goals have := weight_part (weight_untyped h); omega

theorem weight_lib_step {X : Xyml} {k v : Node} (s : LibSection) (x y : s.Ty)
    (h : libStep X k v s x = .ok y) :
    libPartWeight s y ≤ libPartWeight s x + 1 + nodeWeight v := by
  have hv := nodeWeight_pos v
  cases s <;> simp only [libStep] at h <;> simp only [libPartWeight] <;>
    try (simp only [flag_eq]; omega)
  case uses => have := weight_part (weight_strings h); omega
  case types => have := weight_part (weight_types h); omega
  case annotations =>
    by_cases hk : k.value = "annotationTypes"
    · replace h := (if_pos hk).symm.trans h
      have := weight_anns h
      omega
    · replace h := (if_neg hk).symm.trans h
      obtain ⟨a, ha, rfl⟩ := Res.map_eq_ok.mp h
      have := weight_ann ha
      have := mapWeight_put (mapWeight nodeWeight) x k.value a
      omega
  case extra =>
    split at h
    · cases h
    · obtain ⟨y, _, rfl⟩ := Res.map_eq_ok.mp h
      exact mapWeight_put nodeWeight x y v
  all_goals have := weight_part (weight_untyped h); omega

/-- C88: loading into an API document in use adds less than what is loaded. -/
theorem C88_api_load (X : Xyml) (n : Node) (a a' : APISpec) (h : a.unmarshal X n = .ok a') :
    apiWeight a' < apiWeight a + nodeWeight n := by
  refine weight_map (μ := apiWeight) (fun p _ s s' hs => ?_) h
  rw [api_assign_eq] at hs
  obtain ⟨x, hx, rfl⟩ := Res.map_eq_ok.mp hs
  have := weight_api_step _ _ _ hx
  have := apiWeight_set _ x s
  have := nodeWeight_pos p.1
  omega

/-- Non-vacuity: a second document replaces one resource and adds another. -/
example : ∃ a, ({ APISpec.new with resources := ⟨[("/r", .str "x")], false⟩ } : APISpec).unmarshal
    Xyml.std (.map [(.str "/r", .str "y"), (.str "/s", .str "z")]) = .ok a ∧ apiWeight a = 5 :=
  ⟨_, rfl, rfl⟩

/-- C88: loading into a library in use adds less than what is loaded. -/
theorem C88_library_load (X : Xyml) (n : Node) (a a' : Library) (h : a.unmarshal X n = .ok a') :
    libWeight a' < libWeight a + nodeWeight n := by
  refine weight_map (μ := libWeight) (fun p _ s s' hs => ?_) h
  rw [lib_assign_eq] at hs
  obtain ⟨x, hx, rfl⟩ := Res.map_eq_ok.mp hs
  have := weight_lib_step _ _ _ hx
  have := libWeight_set _ x s
  have := nodeWeight_pos p.1
  omega

/-- Non-vacuity: a second document adds a type. -/
example : ∃ l, ({ Library.new with types := ⟨[("A", DT.new .string)], false⟩ } : Library).unmarshal
    Xyml.std (.map [(.str "types", .map [(.str "B", .str "integer")])]) = .ok l ∧
    libWeight l = 6 := ⟨_, rfl, rfl⟩

/-- C88: a parsed API document weighs no more than the text it was read from. -/
theorem C88_api (X : Xyml) (n : Node) (a : APISpec) (h : parseApi X n = .ok a) :
    apiWeight a ≤ nodeWeight n := by
  have := C88_api_load X n _ a h
  rw [show apiWeight APISpec.new = 1 from rfl] at this
  omega

/-- Non-vacuity: a document with a type, a resource and a documentation entry. -/
example : let n : Node := .map [(.str "title", .str "t"),
      (.str "types", .map [(.str "A", .str "string")]), (.str "/r", .map [(.str "get", .str "")]),
      (.str "documentation", .seq "!!seq" [.map [(.str "title", .str "d")]])]
    nodeWeight n = 16 ∧ ∃ a, parseApi Xyml.std n = .ok a ∧ apiWeight a = 12 :=
  ⟨rfl, _, rfl, rfl⟩

/-- C88: a parsed library weighs no more than the text it was read from; an input without a
document gives the weight of a new library. -/
theorem C88_library (X : Xyml) (o : Option Node) (l : Library) (h : parseLibrary X o = .ok l) :
    libWeight l ≤ (o.map nodeWeight).getD 1 := by
  cases o with
  | none => cases h; exact Nat.le_refl _
  | some n =>
    have := C88_library_load X n _ l h
    rw [show libWeight Library.new = 1 from rfl] at this
    simp only [Option.map_some, Option.getD_some]
    omega

/-- Non-vacuity: a library with a type and an extra key. -/
example : let n : Node := .map [(.str "types", .map [(.str "A", .str "string")]),
      (.str "x", .str "y")]
    nodeWeight n = 7 ∧ ∃ l, parseLibrary Xyml.std (some n) = .ok l ∧ libWeight l = 6 :=
  ⟨rfl, _, rfl, rfl⟩

/-- C88: documents loaded one after the other into one API document add up at most. -/
theorem C88_api_loads (X : Xyml) (ns : List Node) (a a' : APISpec)
    (h : ns.foldl (fun (r : Res APISpec) n => r.bind fun b => b.unmarshal X n) (.ok a) = .ok a') :
    apiWeight a' ≤ apiWeight a + nodesWeight ns := by
  have hfail : ∀ (ns : List Node) (r : Res APISpec), (∀ b, r ≠ .ok b) →
      ∀ b, ns.foldl (fun r n => r.bind fun b => b.unmarshal X n) r ≠ .ok b := by
    intro ns
    induction ns with
    | nil => intro r hr; exact hr
    | cons n ns ih =>
      intro r hr
      refine ih _ (fun b hb => ?_)
      obtain ⟨c, hc, _⟩ := Res.bind_eq_ok.mp hb
      exact hr c hc
  induction ns generalizing a with
  | nil => cases h; simp [nodesWeight]
  | cons n ns ih =>
    simp only [List.foldl_cons, Res.bind] at h
    cases hn : a.unmarshal X n with
    | ok b =>
      rw [hn] at h
      have := ih b h
      have := C88_api_load X n a b hn
      simp only [nodesWeight]
      omega
    | err e => rw [hn] at h; exact absurd h (hfail ns _ (fun b hb => by cases hb) a')
    | panic e => rw [hn] at h; exact absurd h (hfail ns _ (fun b hb => by cases hb) a')

/-- Non-vacuity: the same resource loaded twice is held once. -/
example : let n : Node := .map [(.str "/r", .str "y")]
    ∃ a, [n, n].foldl (fun (r : Res APISpec) n => r.bind fun b => b.unmarshal Xyml.std n)
      (.ok APISpec.new) = .ok a ∧ apiWeight a = 3 ∧ nodesWeight [n, n] = 6 :=
  ⟨_, rfl, rfl, rfl⟩

end Verif.Props
