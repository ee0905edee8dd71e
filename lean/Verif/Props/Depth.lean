import Verif.Props.WriteSizes
import Verif.Doc.DepthSpec

/-! # C110: what is read nests no deeper than the document, what is written at most twice as deep -/

namespace Verif.Props
open Verif Verif.Doc Verif.Doc.Spec

/-! ### Basic facts -/

theorem nodeDepth_pos (n : Node) : 1 ≤ nodeDepth n := by
  cases n <;> simp [nodeDepth]

theorem top_le {α : Type} {f : α → Nat} {l : List α} {d : Nat} :
    top f l ≤ d ↔ ∀ x ∈ l, f x ≤ d := by
  induction l with
  | nil => simp [top]
  | cons x l ih =>
    simp only [top, List.map_cons, List.foldr_cons, List.mem_cons, forall_eq_or_imp] at ih ⊢
    rw [← ih]
    omega

theorem nodes_top (ns : List Node) : nodesDepth ns = top nodeDepth ns := by
  induction ns with
  | nil => rfl
  | cons n ns ih => simp only [nodesDepth, ih]; rfl

theorem typeEnts_top (es : List (String × DT)) :
    typeEntsDepth es = top (fun e => 1 + typeDepth e.2) es := by
  induction es with
  | nil => rfl
  | cons e es ih => obtain ⟨k, t⟩ := e; simp only [typeEntsDepth, typeEntDepth, ih]; rfl

theorem types_deep (m : OM String DT) : typesDepth m = partDepth typeDepth m := by
  obtain ⟨es, b⟩ := m
  exact typeEnts_top es

theorem facets_deep (m : OM String (OM String DT)) :
    facetsDepth m = partDepth (fun x => max 1 (partDepth typeDepth x)) m := by
  obtain ⟨es, b⟩ := m
  simp only [facetsDepth, partDepth, mapDepth]
  induction es with
  | nil => rfl
  | cons e es ih =>
    obtain ⟨k, m⟩ := e
    simp only [facetEntsDepth, facetEntDepth, ih, types_deep]
    rfl

theorem items_deep (o : Option DT) : itemsDepth o = optDepth typeDepth o := by
  cases o <;> rfl

theorem mapDepth_put {K V : Type} [DecidableEq K] (w : V → Nat) (m : OM K V) (k : K) (v : V) :
    mapDepth w (m.put k v) ≤ max (mapDepth w m) (w v) := by
  have h : ∀ e ∈ m.ents, w e.2 ≤ mapDepth w m := top_le.mp (Nat.le_refl (mapDepth w m))
  refine top_le.mpr (fun e he => ?_)
  simp only [OM.put, List.mem_append, List.mem_filter, List.mem_singleton] at he
  rcases he with he | rfl
  · have := h e he.1; omega
  · exact Nat.le_max_right _ _

theorem listDepth_push {V : Type} (w : V → Nat) (l : Option (List V)) (x : V) :
    listDepth w (some (l.getD [] ++ [x])) ≤ max (listDepth w l) (1 + w x) := by
  have h := top_le.mp (Nat.le_refl (listDepth w l))
  refine top_le.mpr (fun y hy => ?_)
  simp only [Option.getD_some, List.mem_append, List.mem_singleton] at hy
  rcases hy with hy | rfl
  · have := h y hy; omega
  · exact Nat.le_max_right _ _

theorem top_ones {α : Type} (l : List α) : top (fun _ => 1) l ≤ 1 :=
  top_le.mpr (fun _ _ => Nat.le_refl _)

theorem depth_pairs {σ : Type} {f : Node → Node → σ → Res σ} {μ : σ → Nat} {c : Nat} :
    ∀ ps s s', (∀ p ∈ ps, ∀ s s', f p.1 p.2 s = .ok s' → μ s' ≤ max (μ s) (nodeDepth p.2 + c)) →
      forPairs f ps s = .ok s' → μ s' ≤ max (μ s) (pairsDepth ps + c) := by
  intro ps
  induction ps with
  | nil => intro s s' _ h; cases h; exact Nat.le_max_left _ _
  | cons p ps ih =>
    intro s s' hf h
    obtain ⟨s1, h1, h2⟩ := Res.bind_eq_ok.mp h
    have a := hf p (by simp) s s1 h1
    have b := ih s1 s' (fun q hq => hf q (by simp [hq])) h2
    obtain ⟨k, v⟩ := p
    simp only [pairsDepth, pairDepth] at a b ⊢
    omega

theorem depth_map {σ : Type} {f : Node → Node → σ → Res σ} {μ : σ → Nat} (c : Nat) {v : Node}
    {s s' : σ} (hf : ∀ p ∈ mapEntries v, ∀ s s', f p.1 p.2 s = .ok s' →
      μ s' ≤ max (μ s) (nodeDepth p.2 + c))
    (h : mapForEach f v s = .ok s') : μ s' + 1 ≤ max (μ s + 1) (nodeDepth v + c) := by
  cases v with
  | scalar a b => cases h
  | seq a b => cases h
  | map ps =>
    have := depth_pairs (f := f) (μ := μ) ps s s' hf h
    simp only [nodeDepth]
    omega

theorem depth_seq {σ : Type} {f : Node → σ → Res σ} {μ : σ → Nat} (c : Nat) {v : Node} {s s' : σ}
    (hf : ∀ n s s', f n s = .ok s' → μ s' ≤ max (μ s) (nodeDepth n + c))
    (h : seqForEach f v s = .ok s') : μ s' + 1 ≤ max (μ s + 1) (nodeDepth v + c) := by
  cases v with
  | scalar a b => cases h
  | map a => cases h
  | seq a ns =>
    have : ∀ ns s, forItems f ns s = .ok s' → μ s' ≤ max (μ s) (nodesDepth ns + c) := by
      intro ns
      induction ns with
      | nil => intro s h; cases h; exact Nat.le_max_left _ _
      | cons n ns ih =>
        intro s h
        obtain ⟨s1, h1, h2⟩ := Res.bind_eq_ok.mp h
        have a := hf n s s1 h1
        have b := ih s1 h2
        simp only [nodesDepth]
        omega
    have := this ns s h
    simp only [nodeDepth]
    omega

/-- A loader of a dictionary. -/
theorem depth_loader {V : Type} {g : Node → Res V} {w : V → Nat} {m m' : OM String V} {v : Node}
    (hg : ∀ p ∈ mapEntries v, ∀ x, g p.2 = .ok x → w x ≤ nodeDepth p.2)
    (h : mapForEach (fun k v m => (asString k).bind fun s => (g v).map fun x => m.put s x) v m =
      .ok m') : partDepth w m' ≤ max (partDepth w m) (nodeDepth v) := by
  have := depth_map (μ := partDepth w) 1 (fun p hp s s' hs => by
    obtain ⟨k, _, h2⟩ := Res.bind_eq_ok.mp hs
    obtain ⟨x, hx, rfl⟩ := Res.map_eq_ok.mp h2
    have := mapDepth_put (fun x => 1 + w x) s k x
    have := hg p hp x hx
    simp only [partDepth] at *
    omega) h
  omega

theorem depth_untyped {m m' : OM String Node} {v : Node} (h : loadUntyped m v = .ok m') :
    partDepth nodeDepth m' ≤ max (partDepth nodeDepth m) (nodeDepth v) := by
  have := depth_map (μ := partDepth nodeDepth) 1 (fun p _ s s' hs => by
    obtain ⟨x, hx, rfl⟩ := Res.map_eq_ok.mp hs
    have := mapDepth_put (fun x => 1 + nodeDepth x) s x p.2
    simp only [partDepth] at *
    omega) h
  omega

theorem depth_ann {a : Ann} {v : Node} (h : loadAnn v = .ok a) :
    1 + mapDepth nodeDepth a ≤ nodeDepth v := by
  have := depth_map (μ := mapDepth nodeDepth) 0 (fun p _ s s' hs => by
    obtain ⟨x, hx, rfl⟩ := Res.map_eq_ok.mp hs
    exact mapDepth_put nodeDepth s x p.2) h
  rw [show mapDepth nodeDepth (OM.empty true : OM String Node) = 0 from rfl] at this
  have := nodeDepth_pos v
  omega

theorem depth_strings {m m' : OM String String} {v : Node} (h : loadStrings m v = .ok m') :
    partDepth (fun _ => 1) m' ≤ max (partDepth (fun _ => 1) m) (nodeDepth v) :=
  depth_loader (g := asString) (w := fun _ => 1) (fun p _ _ _ => nodeDepth_pos p.2) h

theorem depth_stringList {l : List String} {v : Node} (h : asStringList v = .ok l) :
    listDepth (fun _ => 1) (some l) ≤ nodeDepth v := by
  have := depth_seq (μ := fun l : List String => listDepth (fun _ => 1) (some l)) 1
    (fun n s s' hs => by
      obtain ⟨x, hx, rfl⟩ := Res.map_eq_ok.mp hs
      have := listDepth_push (fun _ => 1) (some s) x
      have := nodeDepth_pos n
      simp only [Option.getD_some] at *
      omega) h
  rw [show listDepth (fun _ => 1) (some ([] : List String)) = 0 from rfl] at this
  have := nodeDepth_pos v
  omega

/-! ### Examples, XML settings, enums -/

theorem depth_exampleVal {X : Xyml} {kd : Kind} {v : Node} {x : Val}
    (h : exampleVal X kd v = .ok x) : valDepth x ≤ nodeDepth v := by
  have hp := nodeDepth_pos v
  cases kd <;> simp only [exampleVal] at h <;> first
    | (obtain ⟨y, _, rfl⟩ := Res.map_eq_ok.mp h; exact hp)
    | (cases h; exact Nat.le_refl _)
    | (split at h
       · cases h; exact Nat.le_refl _
       · cases h)

theorem depth_enumVal {X : Xyml} {kd : Kind} {v : Node} {x : Val}
    (h : enumVal X kd v = .ok x) : valDepth x ≤ nodeDepth v := by
  have hp := nodeDepth_pos v
  cases kd <;> simp only [enumVal] at h <;> first
    | (obtain ⟨y, _, rfl⟩ := Res.map_eq_ok.mp h; exact hp)
    | (cases h; exact Nat.le_refl _)
    | (split at h
       · cases h; exact hp
       · cases h)

theorem depth_enum {X : Xyml} {kd : Kind} {l l' : Option (List Val)} {v : Node}
    (h : loadEnum X kd l v = .ok l') :
    listDepth valDepth l' ≤ max (listDepth valDepth l) (nodeDepth v) := by
  have := depth_seq (μ := listDepth valDepth) 1 (fun n s s' hs => by
      obtain ⟨x, hx, rfl⟩ := Res.map_eq_ok.mp hs
      have := depth_enumVal hx
      have := listDepth_push valDepth s x
      simp only [pushEnum] at *
      omega) h
  omega

theorem depth_xml_assign {X : Xyml} {k v : Node} {x x' : XML} (h : XML.assign X k v x = .ok x') :
    mapDepth nodeDepth x'.extra ≤ max (mapDepth nodeDepth x.extra) (nodeDepth v) := by
  unfold XML.assign at h
  split_ifs at h <;> obtain ⟨y, _, rfl⟩ := Res.map_eq_ok.mp h <;> first
    | exact Nat.le_max_left _ _
    | exact mapDepth_put nodeDepth x.extra y v

theorem depth_xml {X : Xyml} {v : Node} {x : XML} (h : loadXML X v = .ok x) :
    1 + mapDepth nodeDepth x.extra ≤ nodeDepth v := by
  have := depth_map (μ := fun x : XML => mapDepth nodeDepth x.extra) 0
    (fun p _ s s' hs => depth_xml_assign hs) h
  rw [show mapDepth nodeDepth XML.new.extra = 0 from rfl] at this
  have := nodeDepth_pos v
  omega

theorem depth_example_assign {X : Xyml} {k v : Node} {e e' : Example}
    (h : Example.assign X k v e = .ok e') :
    exampleDepth e' ≤ max (exampleDepth e) (nodeDepth v + 1) := by
  have hx : ∀ e e' : Example, e.putExtra X k v = .ok e' →
      exampleDepth e' ≤ max (exampleDepth e) (nodeDepth v + 1) := by
    intro e e' h
    obtain ⟨y, _, rfl⟩ := Res.map_eq_ok.mp h
    have := mapDepth_put nodeDepth e.extra y v
    simp only [exampleDepth]
    omega
  unfold Example.assign at h
  split at h
  · exact hx _ _ h
  split at h
  · cases h
  · split_ifs at h
    · obtain ⟨a, ha, rfl⟩ := Res.map_eq_ok.mp h
      have := mapDepth_put (fun a => 1 + mapDepth nodeDepth a) e.annotations k.value a
      have := depth_ann ha
      simp only [exampleDepth, annsDepth]
      omega
    · obtain ⟨y, _, rfl⟩ := Res.map_eq_ok.mp h; exact Nat.le_max_left _ _
    · obtain ⟨y, _, rfl⟩ := Res.map_eq_ok.mp h; exact Nat.le_max_left _ _
    · obtain ⟨y, _, rfl⟩ := Res.map_eq_ok.mp h; exact Nat.le_max_left _ _
    · obtain ⟨y, hy, rfl⟩ := Res.map_eq_ok.mp h
      have := depth_exampleVal hy
      simp only [exampleDepth, optDepth]
      omega
    · exact hx _ _ h

/-- C110: loading an example into one in use makes it no deeper than the deeper of the two. -/
theorem C110_example (X : Xyml) (v : Node) (e e' : Example) (h : e.unmarshal X v = .ok e') :
    exampleDepth e' ≤ max (exampleDepth e) (nodeDepth v) := by
  have plain : ∀ y, exampleVal X e.kind v = .ok y →
      exampleDepth { e with value := some y } ≤ max (exampleDepth e) (nodeDepth v) := by
    intro y hy
    have := depth_exampleVal hy
    have := nodeDepth_pos v
    simp only [exampleDepth, optDepth]
    omega
  cases v with
  | map ps =>
    have := depth_map (f := Example.assign X) (v := .map ps) (μ := exampleDepth) 1
      (fun p _ s s' hs => depth_example_assign hs) h
    omega
  | scalar a b => obtain ⟨y, hy, rfl⟩ := Res.map_eq_ok.mp h; exact plain y hy
  | seq a b => obtain ⟨y, hy, rfl⟩ := Res.map_eq_ok.mp h; exact plain y hy

/-- Concrete case: an example with an annotation three levels deep. -/
example : ∃ e, (Example.new .string).unmarshal Xyml.std
    (.map [(.str "value", .str "a"), (.str "(n)", .map [(.str "k", .str "v")])]) = .ok e ∧
    exampleDepth e = 3 ∧ exampleDepth (Example.new .string) = 1 := ⟨_, rfl, rfl, rfl⟩

theorem depth_new_example {X : Xyml} {v : Node} {kd : Kind} {e : Example}
    (h : (Example.new kd).unmarshal X v = .ok e) : exampleDepth e ≤ nodeDepth v := by
  have h1 := C110_example X v _ e h
  have h2 : exampleDepth (Example.new kd) = 1 := by cases kd <;> rfl
  have := nodeDepth_pos v
  omega

theorem depth_examples {X : Xyml} {kd : Kind} {m m' : OM String Example} {v : Node}
    (h : loadExamples X kd m v = .ok m') :
    partDepth exampleDepth m' ≤ max (partDepth exampleDepth m) (nodeDepth v) := by
  have := depth_map (μ := partDepth exampleDepth) 1 (fun p _ s s' hs => by
    obtain ⟨k, _, h2⟩ := Res.bind_eq_ok.mp hs
    obtain ⟨x, hx, rfl⟩ := Res.map_eq_ok.mp h2
    have := mapDepth_put (fun x => 1 + exampleDepth x) s k x
    have := depth_new_example hx
    simp only [partDepth] at *
    omega) h
  omega

/-! ### Types -/

/-- The levels of one facet of a type. -/
def facetDepth : (f : Facet) → f.Ty → Nat
  | .enum, x => listDepth valDepth x
  | .example, x => optDepth exampleDepth x
  | .examples, x => partDepth exampleDepth x
  | .xml, x => optDepth (fun x : XML => 1 + mapDepth nodeDepth x.extra) x
  | .facets, x => partDepth (fun x => max 1 (partDepth typeDepth x)) x
  | .annotations, x => annsDepth x
  | .extra, x => mapDepth nodeDepth x
  | .properties, x => partDepth typeDepth x
  | .items, x => optDepth typeDepth x
  | .fileTypes, x => listDepth (fun _ => 1) x
  | .discriminatorValue, x => optDepth nodeDepth x
  | _, _ => 0

theorem listDepth_none {V : Type} (w : V → Nat) : listDepth w none = 0 := rfl

theorem optDepth_none {V : Type} (w : V → Nat) : optDepth w none = 0 := rfl

theorem mapDepth_empty {K V : Type} (w : V → Nat) (b : Bool) :
    mapDepth w (OM.empty b : OM K V) = 0 := rfl

theorem partDepth_empty {K V : Type} (w : V → Nat) (b : Bool) :
    partDepth w (OM.empty b : OM K V) = 0 := rfl

theorem one_add_max (a b : Nat) : 1 + max a b = max (1 + a) (1 + b) := by omega

theorem typeDepth_set (f : Facet) (x : f.Ty) (t : DT) :
    typeDepth (t.setFacet f x) ≤ max (typeDepth t) (1 + facetDepth f x) := by
  have h1 := Nat.le_max_left (typeDepth t) (1 + facetDepth f x)
  have h2 := Nat.le_max_right (typeDepth t) (1 + facetDepth f x)
  generalize max (typeDepth t) (1 + facetDepth f x) = d at h1 h2
  rcases t with ⟨i, a, e⟩ | ⟨h, b, fs, ps, it⟩
  · cases f <;> simp only [DT.setFacet, DT.setSchema, DT.onHdr, DT.onBody, DT.setFacets,
      DT.setExtra, DT.setProps, DT.setItems, facetDepth, typeDepth] at h1 h2 ⊢ <;> assumption
  · cases f <;> (try cases b) <;> simp only [DT.setFacet, DT.setSchema, DT.onHdr, DT.onBody,
      DT.setFacets, DT.setExtra, DT.setProps, DT.setItems, facetDepth, typeDepth, hdrDepth,
      bodyDepth, types_deep, facets_deep, items_deep, Body.onString, Body.onFile,
      Body.onArray, Body.onObject, Body.onNumber, Body.onInteger, Body.onDatetime, one_add_max,
      Nat.max_le] at h1 h2 ⊢ <;> first
      | exact h1
      | omega
      | (have := facets_deep x; omega)
      | (have := types_deep x; omega)
      | (have := items_deep x; omega)

theorem look_depth (f : Facet) (t : DT) : 1 + facetDepth f (look f t) ≤ typeDepth t := by
  have h1 := Nat.le_refl (typeDepth t)
  have h2 : 1 ≤ typeDepth t := by cases t <;> simp only [typeDepth] <;> exact Nat.le_add_right _ _
  generalize hd : typeDepth t = d at h2 ⊢
  rw [hd] at h1
  clear h1
  replace hd := Nat.le_of_eq hd
  rcases t with ⟨i, a, e⟩ | ⟨h, b, fs, ps, it⟩
  · cases f <;> simp only [facetDepth, look, DT.extra, typeDepth, enum, exampleOf, examplesMap, xml,
      facets, annotationMap, properties, items, fileTypes, discriminatorValue, body,
      listDepth_none, optDepth_none, annsDepth, mapDepth_empty, partDepth_empty] at hd ⊢ <;>
      assumption
  · cases f <;> (try cases b) <;> simp only [facetDepth, look, DT.extra, typeDepth, hdrDepth,
      bodyDepth, types_deep, facets_deep, items_deep, enum, exampleOf, examplesMap, xml,
      facets, annotationMap, properties, items, fileTypes, discriminatorValue, body,
      listDepth_none, optDepth_none, one_add_max, Nat.max_le] at hd ⊢ <;> first
      | assumption
      | omega

theorem depth_step {X : Xyml} {kd : Kind} {k v : Node}
    (ih : ∀ n, sizeOf n ≤ sizeOf v → ∀ t, hat X n = .ok t → typeDepth t ≤ nodeDepth n)
    (f : Facet) (x y : f.Ty) (h : facetStep X kd k v f x = .ok y) :
    facetDepth f y ≤ max (facetDepth f x) (nodeDepth v) := by
  have hv := nodeDepth_pos v
  have hent : ∀ p ∈ mapEntries v, sizeOf p.2 ≤ sizeOf v := by
    intro p hp
    cases v with
    | map ps => exact Nat.le_of_lt (size_entry hp)
    | scalar a b => cases hp
    | seq a b => cases hp
  cases f <;> simp only [facetStep] at h <;>
    try (simp only [facetDepth]; omega)
  case enum => exact depth_enum h
  case «example» =>
    obtain ⟨e, he, rfl⟩ := Res.map_eq_ok.mp h
    obtain ⟨e0, h0, h1⟩ := Res.bind_eq_ok.mp he
    have h2 : e0 = Example.new kd := by cases kd <;> cases h0 <;> rfl
    subst h2
    have := depth_new_example h1
    simp only [facetDepth, optDepth]
    omega
  case examples => exact depth_examples h
  case xml =>
    obtain ⟨e, he, rfl⟩ := Res.map_eq_ok.mp h
    have := depth_xml he
    simp only [facetDepth, optDepth]
    omega
  case facets =>
    replace h := (loadFacets_eq X v x).symm.trans h
    have := depth_map (μ := partDepth (fun x => max 1 (partDepth typeDepth x))) 1
      (fun p hp s s' hs => ?_) h
    · simp only [facetDepth]; omega
    simp only [loadFacet] at hs
    obtain ⟨a, _, h2⟩ := Res.bind_eq_ok.mp hs
    obtain ⟨m, hm, h3⟩ := Res.bind_eq_ok.mp h2
    cases h3
    rw [loadTypes_eq, loadType_form] at hm
    have h4 := depth_loader (w := typeDepth) (fun q hq x hx => ih q.2 (by
      have h5 := hent p hp
      have h6 : sizeOf q.2 ≤ sizeOf p.2 := by
        cases hp2 : p.2 with
        | map ps => rw [hp2] at hq; exact Nat.le_of_lt (size_entry hq)
        | scalar a b => rw [hp2] at hq; cases hq
        | seq a b => rw [hp2] at hq; cases hq
      omega) x hx) hm
    rw [partDepth_empty] at h4
    have h7 := mapDepth_put (fun x => 1 + max 1 (partDepth typeDepth x)) s a m
    have := nodeDepth_pos p.2
    simp only [partDepth] at *
    omega
  case annotations =>
    obtain ⟨a, ha, rfl⟩ := Res.map_eq_ok.mp h
    have := depth_ann ha
    have := mapDepth_put (fun a => 1 + mapDepth nodeDepth a) x k.value a
    simp only [facetDepth, annsDepth]
    omega
  case extra =>
    split at h
    · cases h
    · cases h
      exact mapDepth_put nodeDepth x (.str k.value) v
  case properties =>
    replace h := (loadProps_eq X v x).symm.trans h
    have := depth_map (μ := partDepth typeDepth) 1 (fun p hp s s' hs => ?_) h
    · simp only [facetDepth]; omega
    simp only [loadProp] at hs
    obtain ⟨a, _, h2⟩ := Res.bind_eq_ok.mp hs
    obtain ⟨t, ht, h3⟩ := Res.bind_eq_ok.mp h2
    split at h3
    · cases h3
      have := ih p.2 (hent p hp) t ht
      have := mapDepth_put (fun x => 1 + typeDepth x) s a t
      simp only [partDepth] at *
      omega
    · cases h3
  case items =>
    obtain ⟨t, ht, rfl⟩ := Res.map_eq_ok.mp h
    have := ih v (Nat.le_refl _) t ht
    simp only [facetDepth, optDepth]
    omega
  case fileTypes =>
    obtain ⟨l, hl, rfl⟩ := Res.map_eq_ok.mp h
    exact Nat.le_trans (depth_stringList hl) (Nat.le_max_right _ _)
  case discriminatorValue =>
    cases h
    exact Nat.le_max_right _ _

theorem depth_assign {X : Xyml} {k v : Node}
    (ih : ∀ n, sizeOf n ≤ sizeOf v → ∀ t, hat X n = .ok t → typeDepth t ≤ nodeDepth n)
    {t t' : DT} (h : assign X (k, v) t = .ok t') :
    typeDepth t' ≤ max (typeDepth t) (nodeDepth v + 1) := by
  rw [assign_eq] at h
  obtain ⟨x, hx, rfl⟩ := Res.map_eq_ok.mp h
  have := depth_step ih _ _ _ hx
  have := typeDepth_set _ x t
  have := look_depth (facetOf t.kind (k, v)) t
  omega

theorem depth_bare {t : DT} (h : Bare t) : typeDepth t = 1 := by
  have hnil : ∀ {K V : Type} (w : V → Nat) (m : OM K V), m.ents = [] → mapDepth w m = 0 := by
    intro K V w m hm
    simp [mapDepth, top, hm]
  rcases t with ⟨i, a, e⟩ | ⟨⟨sc, ex, dn, de, an, xm, re, df, en, exa, exs⟩, b, fs, ps, it⟩
  · have h1 : e.ents = [] := h.extra
    simp only [typeDepth, hnil _ _ h1]
  · obtain ⟨h1, d1, d2, d3, h2, h3, h4, h5, h6, h7, h8, h9, h10, h11⟩ := h
    simp only [DT.extra, enum, dflt, exampleOf, examples, annotations, xml, facets, properties,
      items, body, displayName, description, required] at h1 d1 d2 d3 h2 h3 h4 h5 h6 h7 h8 h9 h10 h11
    subst d1 d2 d3 h2 h3 h4 h7 h10
    have hb : bodyDepth b = 0 := by
      have := h11 b rfl
      cases b <;> simp only [isDefaultBody] at this <;> simp only [bodyDepth, this] <;> rfl
    simp only [typeDepth, hdrDepth, types_deep, facets_deep, items_deep, annsDepth, partDepth,
      hnil _ _ h1, hnil _ _ h5, hnil _ _ h6, hnil _ _ h8, hnil _ _ h9, hb, listDepth_none,
      optDepth_none]
    rfl

/-- C110: a parsed type nests no deeper than the text it was read from. -/
theorem C110_type (X : Xyml) (n : Node) (t : DT) (h : hat X n = .ok t) :
    typeDepth t ≤ nodeDepth n := by
  have main : ∀ k n, sizeOf n < k → ∀ t, hat X n = .ok t → typeDepth t ≤ nodeDepth n := by
    intro k
    induction k with
    | zero => intro n hn; omega
    | succ k ih =>
      intro n hn t h
      cases n with
      | seq a b => simp [hat] at h
      | scalar a b =>
        simp only [hat] at h
        split at h
        · cases h
          rw [depth_bare]
          · simp [nodeDepth]
          · exact (typeToKind_spec b).2.2
        split at h
        · cases h; exact Nat.le_refl _
        · cases h
      | map ps =>
        obtain ⟨t0, _, _, hb, h1, _⟩ := hat_map_ok h
        rw [assignAll_eq] at h1
        have := depth_pairs (μ := typeDepth) (c := 1) ps t0 t (fun p hp s s' hs =>
          depth_assign (fun m hm => ih m (by have := size_entry hp; omega)) hs) h1
        rw [depth_bare hb] at this
        simp only [nodeDepth]
        omega
  exact main _ n (Nat.lt_succ_self _) t h

/-- Concrete case: a facet declaration, where the bound is reached. -/
example : let n : Node := .map [(.str "facets", .map [(.str "f", .map [(.str "p",
      .map [(.str "items", .map [(.str "example", .str "x")])])])])]
    nodeDepth n = 6 ∧ ∃ t, hat Xyml.std n = .ok t ∧ typeDepth t = 6 :=
  ⟨rfl, _, rfl, rfl⟩

/-- C110: loading into a type in use makes it no deeper than the deeper of the two. -/
theorem C110_type_load (X : Xyml) (n : Node) (t t' : DT) (h : t.unmarshal X n = .ok t') :
    typeDepth t' ≤ max (typeDepth t) (nodeDepth n) := by
  unfold DT.unmarshal at h
  split at h
  · cases h
    rcases t with ⟨i, a, e⟩ | ⟨h, b, fs, ps, it⟩ <;>
      simp only [DT.setSchema, typeDepth, hdrDepth] <;> omega
  split at h
  · cases h
  · rename_i ps _
    rw [assignAll_eq] at h
    have := depth_pairs (μ := typeDepth) (c := 1) ps t t' (fun p hp s s' hs =>
      depth_assign (fun m _ u hu => C110_type X m u hu) hs) h
    simp only [nodeDepth]
    omega
  · cases h

/-- Concrete case: an array type in use that gets a nested item type. -/
example : ∃ t', (DT.new .array).unmarshal Xyml.std
    (.map [(.str "items", .map [(.str "pattern", .str "a")])]) = .ok t' ∧
    typeDepth t' = 2 ∧ typeDepth (DT.new .array) = 1 := ⟨_, rfl, rfl, rfl⟩

end Verif.Props
