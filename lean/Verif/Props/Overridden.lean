import Verif.Doc.OverSpec
import Verif.Props.Spelling
import Verif.Props.TypeLoad

/-! # C109: an entry that a later one replaces can be left out -/

namespace Verif.Props
open Verif Verif.Doc Verif.Doc.Spec

/-! ### Dictionaries -/

/-- The same but for one key. -/
private def Apart {K V : Type} [DecidableEq K] (k : K) (m m' : OM K V) : Prop :=
  m.ents.filter (fun e => !(e.1 == k)) = m'.ents.filter (fun e => !(e.1 == k)) ∧ m.omap = m'.omap

section
variable {K V : Type} [DecidableEq K]

private theorem apart_put {k j : K} {m m' : OM K V} (h : Apart k m m') (x : V) :
    Apart k (m.put j x) (m'.put j x) := by
  refine ⟨?_, h.2⟩
  have : ∀ l : List (K × V), (l.filter (fun e => !(e.1 == j))).filter (fun e => !(e.1 == k)) =
      (l.filter (fun e => !(e.1 == k))).filter (fun e => !(e.1 == j)) := by
    intro l
    simp only [List.filter_filter, Bool.and_comm]
  simp only [OM.put, List.filter_append, this, h.1]

private theorem apart_putAll {k : K} (es : List (K × V)) : ∀ {m m' : OM K V}, Apart k m m' →
    Apart k (m.putAll es) (m'.putAll es) := by
  induction es with
  | nil => exact fun h => h
  | cons e es ih => exact fun h => ih (apart_put h e.2)

private theorem apart_self (k : K) (m : OM K V) (x : V) : Apart k (m.put k x) m := by
  refine ⟨?_, rfl⟩
  simp [OM.put, List.filter_append, List.filter_filter]

private theorem apart_eq {k : K} {m m' : OM K V} (h : Apart k m m') (x : V) :
    m.put k x = m'.put k x := by
  simp only [OM.put, h.1, h.2]

/-- A value that is put again later does not show. -/
private theorem put_again (k : K) (m : OM K V) (x y : V) (es : List (K × V)) :
    ((m.put k x).putAll es).put k y = (m.putAll es).put k y :=
  apart_eq (apart_putAll es (apart_self k m x)) y

end

/-! ### Loops -/

/-- After the second entry the first one does not show. -/
private def Drops {σ : Type} (f : Node → Node → σ → Res σ) (p q : Node × Node) : Prop :=
  ∀ mid s u, forPairs f (p :: (mid ++ [q])) s = .ok u → forPairs f (mid ++ [q]) s = .ok u

private theorem forPairs_drop {σ : Type} {f : Node → Node → σ → Res σ} {p q : Node × Node}
    (h : Drops f p q) {pre mid post : List (Node × Node)} {s u : σ}
    (hu : forPairs f (pre ++ p :: (mid ++ q :: post)) s = .ok u) :
    forPairs f (pre ++ (mid ++ q :: post)) s = .ok u := by
  have e1 : pre ++ p :: (mid ++ q :: post) = pre ++ ((p :: (mid ++ [q])) ++ post) := by simp
  have e2 : pre ++ (mid ++ q :: post) = pre ++ ((mid ++ [q]) ++ post) := by simp
  rw [e1, forPairs_append] at hu
  rw [e2, forPairs_append]
  obtain ⟨s1, h1, h2⟩ := Res.bind_eq_ok.mp hu
  rw [forPairs_append] at h2
  obtain ⟨s2, h3, h4⟩ := Res.bind_eq_ok.mp h2
  rw [h1, Res.bind_ok, forPairs_append, h mid s1 s2 h3]
  exact h4

private theorem forPairs_less {σ : Type} {f : Node → Node → σ → Res σ} {I : σ → Prop}
    {p q : Node × Node} (h : ∀ s u, I s → f p.1 p.2 s = .ok u → f q.1 q.2 s = .ok u)
    {pre post : List (Node × Node)}
    (hI : ∀ r ∈ pre, ∀ s s', I s → f r.1 r.2 s = .ok s' → I s') {s u : σ} (hs : I s)
    (hu : forPairs f (pre ++ p :: post) s = .ok u) : forPairs f (pre ++ q :: post) s = .ok u := by
  induction pre generalizing s with
  | nil =>
    obtain ⟨a, h1, h2⟩ := Res.bind_eq_ok.mp hu
    exact Res.bind_eq_ok.mpr ⟨a, h s a hs h1, h2⟩
  | cons r pre ih =>
    obtain ⟨a, h1, h2⟩ := Res.bind_eq_ok.mp hu
    exact Res.bind_eq_ok.mpr ⟨a, h1,
      ih (fun r h => hI r (by simp [h])) (hI r (by simp) _ _ hs h1) h2⟩

private theorem forPairs_less' {σ : Type} {f : Node → Node → σ → Res σ}
    {p q : Node × Node} (h : ∀ s u, f p.1 p.2 s = .ok u → f q.1 q.2 s = .ok u)
    {pre post : List (Node × Node)} {s u : σ}
    (hu : forPairs f (pre ++ p :: post) s = .ok u) : forPairs f (pre ++ q :: post) s = .ok u :=
  forPairs_less (I := fun _ => True) (fun s u _ => h s u) (fun _ _ _ _ _ _ => trivial) trivial hu

/-- An entry that sets the state whatever it was. -/
private theorem drops_set {σ : Type} {f : Node → Node → σ → Res σ} {p q : Node × Node}
    (he : ∀ k v s t, ended (f k v s) = ended (f k v t))
    (hq : ∀ s t, f q.1 q.2 s = f q.1 q.2 t) : Drops f p q := by
  intro mid s u h
  obtain ⟨s1, _, h⟩ := Res.bind_eq_ok.mp h
  rw [forPairs_append] at h ⊢
  obtain ⟨s2, h2, h3⟩ := Res.bind_eq_ok.mp h
  obtain ⟨t, ht⟩ := ended_ok (ended_pairs he mid s1 s) h2
  rw [ht, Res.bind_ok]
  obtain ⟨u', h4, h5⟩ := Res.bind_eq_ok.mp h3
  exact Res.bind_eq_ok.mpr ⟨u', (hq t s2).trans h4, h5⟩

/-- An entry that is put under the same name. -/
private theorem drops_put {K V : Type} [DecidableEq K] {f : Node → Node → OM K V → Res (OM K V)}
    {p q : Node × Node} (hf : Puts f) (k : K)
    (hp : ∃ r : Res V, ∀ m, f p.1 p.2 m = r.map fun x => m.put k x)
    (hq : ∃ r : Res V, ∀ m, f q.1 q.2 m = r.map fun x => m.put k x) : Drops f p q := by
  intro mid s u h
  obtain ⟨rp, hp⟩ := hp
  obtain ⟨rq, hq⟩ := hq
  obtain ⟨r, hr⟩ := hf.loop mid
  obtain ⟨s1, h1, h⟩ := Res.bind_eq_ok.mp h
  rw [hp] at h1
  obtain ⟨x, _, rfl⟩ := Res.map_eq_ok.mp h1
  rw [forPairs_append, hr] at h ⊢
  obtain ⟨s2, h2, h3⟩ := Res.bind_eq_ok.mp h
  obtain ⟨es, rfl, rfl⟩ := Res.map_eq_ok.mp h2
  obtain ⟨u', h4, h5⟩ := Res.bind_eq_ok.mp h3
  rw [hq] at h4
  obtain ⟨y, rfl, rfl⟩ := Res.map_eq_ok.mp h4
  refine Res.bind_eq_ok.mpr ⟨s.putAll es, rfl, Res.bind_eq_ok.mpr ⟨(s.putAll es).put k y, ?_, ?_⟩⟩
  · rw [hq]; rfl
  · rw [put_again] at h5; exact h5

/-! ### Names given again -/

private theorem named {V : Type} (n : Node) (r : Res V) : ∃ r' : Res V, ∀ m : OM String V,
    ((asString n).bind fun s => r.map fun x => m.put s x) = r'.map fun x => m.put n.value x := by
  unfold asString
  split
  · exact ⟨r, fun m => rfl⟩
  · exact ⟨.err .notString, fun m => rfl⟩

private theorem names_drop {V : Type} {f : Node → Node → OM String V → Res (OM String V)}
    (g : Node → Res V) (hf : f = fun k v m => (asString k).bind fun s => (g v).map fun x => m.put s x)
    {qs mid rs : List (Node × Node)} {n v w : Node} {m u : OM String V}
    (h : mapForEach f (.map (qs ++ (n, v) :: (mid ++ (n, w) :: rs))) m = .ok u) :
    mapForEach f (.map (qs ++ (mid ++ (n, w) :: rs))) m = .ok u := by
  refine forPairs_drop (drops_put ?_ n.value ?_ ?_) h
  · subst hf
    have := puts_single fun k v => (asString k).bind fun s => (g v).map fun x => (s, x)
    refine cast (congrArg Puts ?_) this
    funext k v m
    cases asString k <;> cases g v <;> rfl
  · subst hf; exact named n (g v)
  · subst hf; exact named n (g w)

private theorem untyped_drop {qs mid rs : List (Node × Node)} {n v w : Node} {m u : OM String Node}
    (h : loadUntyped m (.map (qs ++ (n, v) :: (mid ++ (n, w) :: rs))) = .ok u) :
    loadUntyped m (.map (qs ++ (mid ++ (n, w) :: rs))) = .ok u := by
  refine names_drop (fun v => .ok v) ?_ h
  funext k v m
  cases asString k <;> rfl

private theorem strings_drop {qs mid rs : List (Node × Node)} {n v w : Node}
    {m u : OM String String}
    (h : loadStrings m (.map (qs ++ (n, v) :: (mid ++ (n, w) :: rs))) = .ok u) :
    loadStrings m (.map (qs ++ (mid ++ (n, w) :: rs))) = .ok u :=
  names_drop asString rfl h

private theorem anns_drop {qs mid rs : List (Node × Node)} {n v w : Node} {m u : OM String Ann}
    (h : loadAnns m (.map (qs ++ (n, v) :: (mid ++ (n, w) :: rs))) = .ok u) :
    loadAnns m (.map (qs ++ (mid ++ (n, w) :: rs))) = .ok u :=
  names_drop loadAnn rfl h

private theorem examples_drop {X : Xyml} {kd : Kind} {qs mid rs : List (Node × Node)}
    {n v w : Node} {m u : OM String Example}
    (h : loadExamples X kd m (.map (qs ++ (n, v) :: (mid ++ (n, w) :: rs))) = .ok u) :
    loadExamples X kd m (.map (qs ++ (mid ++ (n, w) :: rs))) = .ok u :=
  names_drop ((Example.new kd).unmarshal X) rfl h

private theorem types_drop {X : Xyml} {qs mid rs : List (Node × Node)} {n v w : Node}
    {m u : OM String DT}
    (h : loadTypes X (.map (qs ++ (n, v) :: (mid ++ (n, w) :: rs))) m = .ok u) :
    loadTypes X (.map (qs ++ (mid ++ (n, w) :: rs))) m = .ok u := by
  rw [loadTypes_eq] at h ⊢
  refine names_drop (hat X) ?_ h
  funext k v m
  unfold loadType
  cases asString k <;> cases hat X v <;> rfl

private theorem props_drop {X : Xyml} {qs mid rs : List (Node × Node)} {n v w : Node}
    {m u : OM String DT}
    (h : loadProps X (.map (qs ++ (n, v) :: (mid ++ (n, w) :: rs))) m = .ok u) :
    loadProps X (.map (qs ++ (mid ++ (n, w) :: rs))) m = .ok u := by
  rw [loadProps_eq] at h ⊢
  refine names_drop (fun v => (hat X v).bind fun t =>
    if t.isProperty then (.ok t : Res DT) else .panic .notProperty) ?_ h
  funext k v m
  unfold loadProp
  cases asString k with
  | ok s =>
    cases hat X v with
    | ok t => simp only [Res.bind_ok]; split <;> rfl
    | err e => rfl
    | panic c => rfl
  | err e => rfl
  | panic c => rfl

private theorem facets_drop {X : Xyml} {qs mid rs : List (Node × Node)} {n v w : Node}
    {m u : OM String (OM String DT)}
    (h : loadFacets X (.map (qs ++ (n, v) :: (mid ++ (n, w) :: rs))) m = .ok u) :
    loadFacets X (.map (qs ++ (mid ++ (n, w) :: rs))) m = .ok u := by
  rw [loadFacets_eq] at h ⊢
  refine names_drop (fun v => loadTypes X v (OM.empty true)) ?_ h
  funext k v m
  unfold loadFacet
  cases asString k <;> cases loadTypes X v (OM.empty true) <;> rfl

/-! ### Inside a definition -/

private theorem loadTypes_less {X : Xyml} {n v w : Node}
    (h : ∀ t, hat X v = .ok t → hat X w = .ok t) {qs rs : List (Node × Node)} {m u : OM String DT}
    (hu : loadTypes X (.map (qs ++ (n, v) :: rs)) m = .ok u) :
    loadTypes X (.map (qs ++ (n, w) :: rs)) m = .ok u := by
  rw [loadTypes_eq] at hu ⊢
  refine forPairs_less' (f := fun k v m => loadType X (k, v) m) (p := (n, v)) (q := (n, w))
    (fun s u hs => ?_) hu
  simp only [loadType] at hs ⊢
  obtain ⟨a, h1, h2⟩ := Res.bind_eq_ok.mp hs
  obtain ⟨t, h3, h4⟩ := Res.bind_eq_ok.mp h2
  exact Res.bind_eq_ok.mpr ⟨a, h1, Res.bind_eq_ok.mpr ⟨t, h t h3, h4⟩⟩

private theorem loadProps_less {X : Xyml} {n v w : Node}
    (h : ∀ t, hat X v = .ok t → hat X w = .ok t) {qs rs : List (Node × Node)} {m u : OM String DT}
    (hu : loadProps X (.map (qs ++ (n, v) :: rs)) m = .ok u) :
    loadProps X (.map (qs ++ (n, w) :: rs)) m = .ok u := by
  rw [loadProps_eq] at hu ⊢
  refine forPairs_less' (f := fun k v m => loadProp X (k, v) m) (p := (n, v)) (q := (n, w))
    (fun s u hs => ?_) hu
  simp only [loadProp] at hs ⊢
  obtain ⟨a, h1, h2⟩ := Res.bind_eq_ok.mp hs
  obtain ⟨t, h3, h4⟩ := Res.bind_eq_ok.mp h2
  exact Res.bind_eq_ok.mpr ⟨a, h1, Res.bind_eq_ok.mpr ⟨t, h t h3, h4⟩⟩

private theorem loadFacets_less {X : Xyml} {g n v w : Node}
    (h : ∀ t, hat X v = .ok t → hat X w = .ok t) {gs hs qs rs : List (Node × Node)}
    {m u : OM String (OM String DT)}
    (hu : loadFacets X (.map (gs ++ (g, .map (qs ++ (n, v) :: rs)) :: hs)) m = .ok u) :
    loadFacets X (.map (gs ++ (g, .map (qs ++ (n, w) :: rs)) :: hs)) m = .ok u := by
  rw [loadFacets_eq] at hu ⊢
  refine forPairs_less' (f := fun k v m => loadFacet X (k, v) m)
    (p := (g, .map (qs ++ (n, v) :: rs))) (q := (g, .map (qs ++ (n, w) :: rs)))
    (fun s u hs => ?_) hu
  simp only [loadFacet] at hs ⊢
  obtain ⟨a, h1, h2⟩ := Res.bind_eq_ok.mp hs
  obtain ⟨t, h3, h4⟩ := Res.bind_eq_ok.mp h2
  exact Res.bind_eq_ok.mpr ⟨a, h1, Res.bind_eq_ok.mpr ⟨t, loadTypes_less h h3, h4⟩⟩

/-- An entry of a definition can be replaced by one that does the same where the first one is
accepted. -/
private theorem hat_less {X : Xyml} {k v v' : Node} {pre post : List (Node × Node)} {kd : Kind}
    {f : Facet} {s : String} (hk : kindOf (pre ++ (k, v) :: post) = some kd)
    (hv : k.value = s) (h1 : s ≠ "type") (h2 : s ≠ "schema")
    (hf : ∀ v, facetOf kd (k, v) = f)
    (ha : ∀ x y : f.Ty, facetStep X kd k v f x = .ok y → facetStep X kd k v' f x = .ok y)
    {t : DT} (h : hat X (.map (pre ++ (k, v) :: post)) = .ok t) :
    hat X (.map (pre ++ (k, v') :: post)) = .ok t := by
  unfold hat at h ⊢
  rw [← sift_same (pre := pre) (post := post) (v := v) (v' := v') (k := k) (k' := k)
    (.inl ⟨rfl, fun h => absurd h (not_gives hv h1 h2)⟩)]
  obtain ⟨t0, h0, h⟩ := Res.bind_eq_ok.mp h
  have h0k := sift_kind h0 hk
  rw [h0, Res.bind_ok]
  rw [assignAll_eq] at h ⊢
  refine forPairs_less (f := fun k v t => assign X (k, v) t)
    (I := fun t : DT => t.kind = kd) (p := (k, v)) (q := (k, v')) (fun a b hI hs => ?_)
    (fun _ _ _ _ hI h => (assign_kind h).trans hI) h0k h
  have hs : assign X (k, v) a = .ok b := hs
  show assign X (k, v') a = .ok b
  have hI : a.kind = kd := hI
  rw [assign_eq, hI, hf] at hs ⊢
  unfold DT.step at hs ⊢
  rw [hI] at hs ⊢
  obtain ⟨x, hx, rfl⟩ := Res.map_eq_ok.mp hs
  rw [ha _ _ hx]
  rfl

/-! ### Entries given again -/

private theorem filter_drop (c : Node × Node → Bool) {p q : Node × Node} (hc : c p = c q)
    (pre mid post : List (Node × Node)) :
    (c p = true ∧ (pre ++ p :: (mid ++ q :: post)).filter c =
      pre.filter c ++ p :: (mid.filter c ++ q :: post.filter c) ∧
      (pre ++ (mid ++ q :: post)).filter c =
      pre.filter c ++ (mid.filter c ++ q :: post.filter c)) ∨
    (pre ++ p :: (mid ++ q :: post)).filter c = (pre ++ (mid ++ q :: post)).filter c := by
  cases h : c p with
  | true =>
    have hq := hc.symm.trans h
    refine .inl ⟨rfl, ?_, ?_⟩ <;> simp [List.filter_append, h, hq]
  | false =>
    refine .inr ?_
    simp [List.filter_append, h]

private theorem facet_name {kd : Kind} {k v : Node} {f : Facet} {s : String}
    (hs : ∀ e ∈ facetNamed, e.2 = f → e.1 = s) (h1 : f ≠ .annotations) (h2 : f ≠ .extra)
    (hf : facetOf kd (k, v) = f) : k.value = s := by
  unfold facetOf at hf
  split at hf
  · cases hl : facetNamed.lookup k.value with
    | none => rw [hl] at hf; exact absurd hf.symm h2
    | some x =>
      rw [hl] at hf
      exact hs _ (mem_of_lookup hl) hf
  · split at hf
    · exact absurd hf.symm h1
    · exact absurd hf.symm h2

private theorem type_extra_drops (kd : Kind) (k v w : Node) :
    Drops (fun k v (m : OM Scalar Node) =>
      if !isBasic kd && k.isStr && k.value == "" then .panic .emptyKey
      else .ok (OM.put m (.str k.value) v)) (k, v) (k, w) := by
  refine drops_put (puts_type_extra kd) (.str k.value)
    ⟨if !isBasic kd && k.isStr && k.value == "" then .panic .emptyKey else .ok v, fun m => ?_⟩
    ⟨if !isBasic kd && k.isStr && k.value == "" then .panic .emptyKey else .ok w, fun m => ?_⟩ <;>
  · dsimp only
    split <;> rfl

private theorem facet_drops {X : Xyml} {kd : Kind} {k v w : Node}
    (hk : k.value ∉ ["enum", "examples", "facets", "properties"]) (f : Facet)
    (hf : facetOf kd (k, v) = f) :
    Drops (fun k v x => facetStep X kd k v f x) (k, v) (k, w) := by
  cases f with
  | enum =>
    exact absurd (by rw [facet_name (s := "enum") (by decide) (by decide) (by decide) hf]; decide) hk
  | examples =>
    exact absurd (by rw [facet_name (s := "examples") (by decide) (by decide) (by decide) hf]; decide) hk
  | facets =>
    exact absurd (by rw [facet_name (s := "facets") (by decide) (by decide) (by decide) hf]; decide) hk
  | properties =>
    exact absurd (by rw [facet_name (s := "properties") (by decide) (by decide) (by decide) hf]; decide) hk
  | annotations =>
    exact drops_put (Puts.put_entry fun _ v => loadAnn v) k.value ⟨loadAnn v, fun m => rfl⟩
      ⟨loadAnn w, fun m => rfl⟩
  | extra =>
    exact type_extra_drops kd k v w
  | _ =>
    exact drops_set (fun k v s t => facetStep_ended X kd k v _ s t) (fun _ _ => rfl)

private theorem assignAll_drop {X : Xyml} {k v w : Node} {pre mid post : List (Node × Node)}
    (hk : k.value ∉ ["enum", "examples", "facets", "properties"]) {t u : DT}
    (h : assignAll X (pre ++ (k, v) :: (mid ++ (k, w) :: post)) t = .ok u) :
    assignAll X (pre ++ (mid ++ (k, w) :: post)) t = .ok u := by
  have ⟨u', h'⟩ : ∃ u', assignAll X (pre ++ (mid ++ (k, w) :: post)) t = .ok u' := by
    rw [assignAll_append] at h ⊢
    obtain ⟨t1, h1, h2⟩ := Res.bind_eq_ok.mp h
    rw [h1, Res.bind_ok]
    simp only [assignAll] at h2
    obtain ⟨t2, h3, h4⟩ := Res.bind_eq_ok.mp h2
    exact ended_ok (assignAll_ended X _ (assign_kind h3)) h4
  have hku : ∀ {ps : List (Node × Node)} {u : DT}, assignAll X ps t = .ok u → u.kind = t.kind := by
    intro ps u h
    rw [assignAll_eq] at h
    exact forPairs_inv (I := fun u : DT => u.kind = t.kind)
      (fun k v s s' hI h => (assign_kind h).trans hI) ps t u rfl h
  rw [h']
  congr 1
  refine eq_of_look ((hku h').trans (hku h).symm)
    ((assignAll_dflt h').trans (assignAll_dflt h).symm) fun f => ?_
  have e1 := dt_part f _ t u rfl h
  have e2 := dt_part f _ t u' rfl h'
  rcases filter_drop (fun r => decide (facetOf t.kind r = f)) (p := (k, v)) (q := (k, w)) rfl pre mid post with
    ⟨hf, h1, h2⟩ | h1
  · rw [h1] at e1
    rw [h2] at e2
    have := forPairs_drop (facet_drops hk f (of_decide_eq_true hf)) e1
    exact Res.ok.inj (e2.symm.trans this)
  · rw [h1] at e1
    exact Res.ok.inj (e2.symm.trans e1)

private theorem sift_drop {k v w : Node} {pre mid post : List (Node × Node)}
    (h : GivesType k → ∃ r ∈ pre, GivesType r.1) :
    siftType (pre ++ (k, v) :: (mid ++ (k, w) :: post)) =
      siftType (pre ++ (mid ++ (k, w) :: post)) := by
  have hg : ∀ r : Node × Node, isTypeEntry r = true ↔ GivesType r.1 := by
    intro r; simp [isTypeEntry, GivesType]
  have hf : (pre ++ (k, v) :: (mid ++ (k, w) :: post)).find? isTypeEntry =
      (pre ++ (mid ++ (k, w) :: post)).find? isTypeEntry := by
    rw [List.find?_append, List.find?_append]
    cases hp : pre.find? isTypeEntry with
    | some e => rfl
    | none =>
      rw [List.find?_eq_none] at hp
      have : isTypeEntry (k, v) = false := by
        rw [Bool.eq_false_iff]
        intro hc
        obtain ⟨r, hr, hr'⟩ := h ((hg _).mp hc)
        exact hp r hr ((hg r).mpr hr')
      rw [List.find?_cons, this]
  have hi : impliedKind (pre ++ (k, v) :: (mid ++ (k, w) :: post)) =
      impliedKind (pre ++ (mid ++ (k, w) :: post)) := by
    have : ∀ s : String, (pre ++ (k, v) :: (mid ++ (k, w) :: post)).any
        (fun p => p.1.value == s) = (pre ++ (mid ++ (k, w) :: post)).any
        (fun p => p.1.value == s) := by
      intro s
      simp only [List.any_append, List.any_cons]
      cases (k.value == s) <;> simp
    unfold impliedKind
    rw [this, this]
  obtain ⟨h1, h2⟩ := siftType_spec (pre ++ (k, v) :: (mid ++ (k, w) :: post))
  obtain ⟨h3, h4⟩ := siftType_spec (pre ++ (mid ++ (k, w) :: post))
  cases hc : (pre ++ (mid ++ (k, w) :: post)).find? isTypeEntry with
  | none => rw [h2 (hf.trans hc), h4 hc, hi]
  | some e => rw [h1 e (hf.trans hc), h3 e hc]

/-- C109: a type definition is read to the same type without entries that a later one
replaces. -/
theorem C109_type (X : Xyml) {n m : Node} (h : Trimmed n m) {t : DT} (ht : hat X n = .ok t) :
    hat X m = .ok t := by
  induction h generalizing t with
  | refl n => exact ht
  | trans _ _ ih ih' => exact ih' (ih ht)
  | @entry pre mid post k v w h1 h2 =>
    unfold hat at ht ⊢
    rw [← sift_drop (v := v) h2]
    obtain ⟨t0, h0, h⟩ := Res.bind_eq_ok.mp ht
    rw [h0, Res.bind_ok]
    exact assignAll_drop h1 h
  | @examples pre post kd k qs mid rs n v w hk hb hv =>
    exact hat_less (v' := .map (qs ++ (mid ++ (n, w) :: rs))) (f := .examples) hk hv (by decide) (by decide)
      (fun _ => nonbasic_facet hb hv (by intro kd; cases kd <;> decide) (by decide))
      (fun x y h => examples_drop h) ht
  | @properties pre post k qs mid rs n v w hk hv =>
    exact hat_less (v' := .map (qs ++ (mid ++ (n, w) :: rs))) (f := .properties) hk hv (by decide) (by decide)
      (fun _ => facetOf_eq hv (by decide) (by decide))
      (fun x y h => props_drop h) ht
  | @facets pre post kd k qs mid rs n v w hk hb hv =>
    exact hat_less (v' := .map (qs ++ (mid ++ (n, w) :: rs))) (f := .facets) hk hv (by decide) (by decide)
      (fun _ => nonbasic_facet hb hv (by intro kd; cases kd <;> decide) (by decide))
      (fun x y h => facets_drop h) ht
  | @items pre post k v w hk hv _ ih =>
    refine hat_less (v' := w) (f := .items) hk hv (by decide) (by decide)
      (fun _ => facetOf_eq hv (by decide) (by decide)) (fun x y h => ?_) ht
    have h : (hat X v).map some = .ok y := h
    obtain ⟨a, ha, rfl⟩ := Res.map_eq_ok.mp h
    show (hat X w).map some = _
    rw [ih ha]
    rfl
  | @property pre post k qs rs n v w hk hv _ ih =>
    exact hat_less (v' := .map (qs ++ (n, w) :: rs)) (f := .properties) hk hv (by decide) (by decide)
      (fun _ => facetOf_eq hv (by decide) (by decide))
      (fun x y h => loadProps_less (fun t => ih) h) ht
  | @facet pre post kd k gs hs g qs rs n v w hk hb hv _ ih =>
    exact hat_less (v' := .map (gs ++ (g, .map (qs ++ (n, w) :: rs)) :: hs)) (f := .facets) hk hv (by decide) (by decide)
      (fun _ => nonbasic_facet hb hv (by intro kd; cases kd <;> decide) (by decide))
      (fun x y h => loadFacets_less (fun t => ih) h) ht

/-! ### API documents -/

private theorem api_name {k v : Node} {i : ApiSection} (h1 : i ≠ .annotations)
    (h2 : i ≠ .resources) (h3 : i ≠ .extra) (h : apiSectionOf (k, v) = i) :
    k.isStr = true ∧ (k.value, i) ∈ apiKeys := by
  unfold apiSectionOf at h
  split at h
  · exact absurd h.symm h1
  · split at h
    · exact absurd h.symm h2
    · split at h
      · rename_i hs
        cases hl : apiKeys.lookup k.value with
        | none => rw [hl] at h; exact absurd h.symm h3
        | some x =>
          rw [hl] at h
          have h : x = i := h
          subst h
          exact ⟨hs, lookup_some_mem hl⟩
      · exact absurd h.symm h3

private theorem extra_drops (X : Xyml) (k v w : Node) :
    Drops (fun k v (m : OM Scalar Node) => if k.isStr && k.value == "" then .panic .emptyKey
      else (asScalar X k).map fun s => OM.put m s v) (k, v) (k, w) := by
  have : ∃ s, ∀ v, ∃ r : Res Node, ∀ m : OM Scalar Node,
      (if k.isStr && k.value == "" then .panic .emptyKey
        else (asScalar X k).map fun s => OM.put m s v) = r.map fun x => m.put s x := by
    cases ha : asScalar X k with
    | ok s =>
      refine ⟨s, fun v =>
        ⟨if k.isStr && k.value == "" then .panic .emptyKey else .ok v, fun m => ?_⟩⟩
      split <;> rfl
    | err e =>
      refine ⟨.str "", fun v =>
        ⟨if k.isStr && k.value == "" then .panic .emptyKey else .err e, fun m => ?_⟩⟩
      split <;> rfl
    | panic c =>
      refine ⟨.str "", fun v =>
        ⟨if k.isStr && k.value == "" then .panic .emptyKey else .panic c, fun m => ?_⟩⟩
      split <;> rfl
  obtain ⟨s, hs⟩ := this
  exact drops_put (puts_extra X) s (hs v) (hs w)

private theorem api_drops {X : Xyml} {k v w : Node}
    (hk : k.isStr = true → k.value ∉ apiAdding ∧ (k.value = "mediaType" → w.isStr = false))
    (i : ApiSection) (hi : apiSectionOf (k, v) = i) :
    Drops (fun k v x => apiStep X k v i x) (k, v) (k, w) := by
  have hadd : ∀ j, j ≠ .annotations → j ≠ .resources → j ≠ .extra →
      (∀ e ∈ apiKeys, e.2 = j → e.1 ∈ apiAdding) → i ≠ j := by
    rintro j h1 h2 h3 h4 rfl
    obtain ⟨h5, h6⟩ := api_name h1 h2 h3 hi
    exact (hk h5).1 (h4 _ h6 rfl)
  cases i with
  | documentation | uses | securitySchemes | baseUriParameters | traits | annotationTypes
  | resourceTypes | types =>
    exact absurd rfl (hadd _ (by decide) (by decide) (by decide) (by decide))
  | annotations =>
    exact drops_put (Puts.put_entry fun _ v => loadAnn v) k.value ⟨loadAnn v, fun m => rfl⟩
      ⟨loadAnn w, fun m => rfl⟩
  | resources =>
    exact drops_put (Puts.put_entry fun _ v => .ok v) k.value ⟨.ok v, fun m => rfl⟩
      ⟨.ok w, fun m => rfl⟩
  | extra => exact extra_drops X k v w
  | mediaType =>
    obtain ⟨h5, h6⟩ := api_name (by decide) (by decide) (by decide) hi
    have : ∀ e ∈ apiKeys, e.2 = .mediaType → e.1 = "mediaType" := by decide
    have hw := (hk h5).2 (this _ h6 rfl)
    refine drops_set (fun k v s t => apiStep_ended X k v _ s t) (fun s t => ?_)
    show (if w.isStr then _ else _) = (if w.isStr then _ else _)
    rw [hw]
    rfl
  | _ => exact drops_set (fun k v s t => apiStep_ended X k v _ s t) (fun _ _ => rfl)

private theorem api_types' {X : Xyml} {s : String} (hs : s = "types" ∨ s = "schemas") (v : Node)
    (a : APISpec) : a.assign X (.str s) v =
      (loadTypes X v a.types).map fun m => { a with types := m } := by
  rcases hs with rfl | rfl <;> rfl

private theorem map_less {α β : Type} {r r' : Res α} {g : α → β} {b : β}
    (h : ∀ a, r = .ok a → r' = .ok a) (hb : r.map g = .ok b) : r'.map g = .ok b := by
  obtain ⟨a, ha, rfl⟩ := Res.map_eq_ok.mp hb
  rw [h a ha]
  rfl

/-- C109: an API document is read to the same object without entries that a later one
replaces. -/
theorem C109_api (X : Xyml) {n m : Node} (h : ApiTrimmed n m) {a : APISpec}
    (ha : parseApi X n = .ok a) : parseApi X m = .ok a := by
  induction h with
  | refl n => exact ha
  | trans _ _ ih ih' => exact ih' (ih ha)
  | @entry pre mid post k v w hk =>
    have h : forPairs (APISpec.assign X) (pre ++ (k, v) :: (mid ++ (k, w) :: post)) APISpec.new =
      .ok a := ha
    have ⟨b, h'⟩ : ∃ b, forPairs (APISpec.assign X) (pre ++ (mid ++ (k, w) :: post)) APISpec.new =
        .ok b := by
      rw [forPairs_append] at h ⊢
      obtain ⟨t1, h1, h2⟩ := Res.bind_eq_ok.mp h
      rw [h1, Res.bind_ok]
      obtain ⟨t2, h3, h4⟩ := Res.bind_eq_ok.mp h2
      exact ended_ok (api_ended X (.map (mid ++ (k, w) :: post)) t2 t1) h4
    show forPairs (APISpec.assign X) _ _ = _
    rw [h']
    congr 1
    refine api_ext fun i => ?_
    have e1 := api_part i _ _ _ h
    have e2 := api_part i _ _ _ h'
    unfold apiEntries at e1 e2
    rcases filter_drop (fun r => apiSectionOf r == i) (p := (k, v)) (q := (k, w)) rfl pre mid post with
      ⟨hf, h1, h2⟩ | h1
    · rw [h1] at e1
      rw [h2] at e2
      exact Res.ok.inj (e2.symm.trans (forPairs_drop (api_drops hk i (eq_of_beq hf)) e1))
    · rw [h1] at e1
      exact Res.ok.inj (e2.symm.trans e1)
  | @name pre post s qs mid rs n v w hs hd =>
    refine forPairs_less' (f := fun k v a => APISpec.assign X k v a)
      (p := (.str s, .map (qs ++ (n, v) :: (mid ++ (n, w) :: rs))))
      (q := (.str s, .map (qs ++ (mid ++ (n, w) :: rs)))) (fun b u hb => ?_) ha
    have hb : b.assign X (.str s) _ = .ok u := hb
    show b.assign X (.str s) _ = .ok u
    rw [api_assign_eq] at hb ⊢
    simp only [apiAdding, List.mem_cons, List.not_mem_nil, or_false] at hs
    rcases hs with rfl | rfl | rfl | rfl | rfl | rfl | rfl | rfl | rfl
    · exact absurd rfl hd
    · have hsec : ∀ v, apiSectionOf (.str "uses", v) = .uses := fun v =>
        (show _ = apiSectionOf (.str "uses", .map []) from rfl).trans (by decide)
      rw [hsec] at hb ⊢
      exact map_less (fun a h => strings_drop h) hb
    · have hsec : ∀ v, apiSectionOf (.str "securitySchemes", v) = .securitySchemes := fun v =>
        (show _ = apiSectionOf (.str "securitySchemes", .map []) from rfl).trans (by decide)
      rw [hsec] at hb ⊢
      exact map_less (fun a h => untyped_drop h) hb
    · have hsec : ∀ v, apiSectionOf (.str "baseUriParameters", v) = .baseUriParameters := fun v =>
        (show _ = apiSectionOf (.str "baseUriParameters", .map []) from rfl).trans (by decide)
      rw [hsec] at hb ⊢
      exact map_less (fun a h => untyped_drop h) hb
    · have hsec : ∀ v, apiSectionOf (.str "traits", v) = .traits := fun v =>
        (show _ = apiSectionOf (.str "traits", .map []) from rfl).trans (by decide)
      rw [hsec] at hb ⊢
      exact map_less (fun a h => untyped_drop h) hb
    · have hsec : ∀ v, apiSectionOf (.str "annotationTypes", v) = .annotationTypes := fun v =>
        (show _ = apiSectionOf (.str "annotationTypes", .map []) from rfl).trans (by decide)
      rw [hsec] at hb ⊢
      exact map_less (fun a h => untyped_drop h) hb
    · have hsec : ∀ v, apiSectionOf (.str "resourceTypes", v) = .resourceTypes := fun v =>
        (show _ = apiSectionOf (.str "resourceTypes", .map []) from rfl).trans (by decide)
      rw [hsec] at hb ⊢
      exact map_less (fun a h => untyped_drop h) hb
    · have hsec : ∀ v, apiSectionOf (.str "types", v) = .types := fun v =>
        (show _ = apiSectionOf (.str "types", .map []) from rfl).trans (by decide)
      rw [hsec] at hb ⊢
      exact map_less (fun a h => types_drop h) hb
    · have hsec : ∀ v, apiSectionOf (.str "schemas", v) = .types := fun v =>
        (show _ = apiSectionOf (.str "schemas", .map []) from rfl).trans (by decide)
      rw [hsec] at hb ⊢
      exact map_less (fun a h => types_drop h) hb
  | @type pre post s qs rs n v w hs hr =>
    refine forPairs_less' (f := fun k v a => APISpec.assign X k v a)
      (p := (.str s, .map (qs ++ (n, v) :: rs)))
      (q := (.str s, .map (qs ++ (n, w) :: rs))) (fun b u hb => ?_) ha
    have hb : b.assign X (.str s) _ = .ok u := hb
    show b.assign X (.str s) _ = .ok u
    rw [api_types' hs] at hb ⊢
    exact map_less (fun a h => loadTypes_less (fun t => C109_type X hr) h) hb

/-! ### Libraries -/

private theorem lib_drops {X : Xyml} {k v w : Node} (hk : k.value ∉ libAdding)
    (i : LibSection) (hi : libSectionOf (k, v) = i) :
    Drops (fun k v x => libStep X k v i x) (k, v) (k, w) := by
  have hadd : ∀ j, j ≠ .annotations → j ≠ .extra →
      (∀ e ∈ libKeys, e.2 = j → e.1 ∈ libAdding) → i ≠ j := by
    rintro j h1 h3 h4 rfl
    unfold libSectionOf at hi
    split at hi
    · rename_i x hl
      subst hi
      exact hk (h4 _ (lookup_some_mem hl) rfl)
    · split at hi
      · exact h1 hi.symm
      · exact h3 hi.symm
  cases i with
  | uses | securitySchemes | traits | resourceTypes | types =>
    exact absurd rfl (hadd _ (by decide) (by decide) (by decide))
  | annotations =>
    have hne : k.value ≠ "annotationTypes" := fun h => hk (by rw [h]; decide)
    refine drops_put (puts_lib_anns X) k.value ⟨loadAnn v, fun m => ?_⟩ ⟨loadAnn w, fun m => ?_⟩
    · exact if_neg hne
    · exact if_neg hne
  | extra => exact extra_drops X k v w
  | usage => exact drops_set (fun k v s t => libStep_ended X k v _ s t) (fun _ _ => rfl)

/-- C109: a library is read to the same object without entries that a later one replaces. -/
theorem C109_library (X : Xyml) {n m : Node} (h : LibTrimmed n m) {a : Library}
    (ha : parseLibrary X (some n) = .ok a) : parseLibrary X (some m) = .ok a := by
  induction h with
  | refl n => exact ha
  | trans _ _ ih ih' => exact ih' (ih ha)
  | @entry pre mid post k v w hk =>
    have h : forPairs (Library.assign X) (pre ++ (k, v) :: (mid ++ (k, w) :: post)) Library.new =
      .ok a := ha
    have ⟨b, h'⟩ : ∃ b, forPairs (Library.assign X) (pre ++ (mid ++ (k, w) :: post)) Library.new =
        .ok b := by
      rw [forPairs_append] at h ⊢
      obtain ⟨t1, h1, h2⟩ := Res.bind_eq_ok.mp h
      rw [h1, Res.bind_ok]
      obtain ⟨t2, h3, h4⟩ := Res.bind_eq_ok.mp h2
      exact ended_ok (lib_ended X (.map (mid ++ (k, w) :: post)) t2 t1) h4
    have hann : ∀ {ps : List (Node × Node)} {b : Library},
        forPairs (Library.assign X) ps Library.new = .ok b →
        b.annotationTypes = Library.new.annotationTypes := by
      intro ps b h
      exact forPairs_inv (I := fun u : Library => u.annotationTypes = Library.new.annotationTypes)
        (fun k v s s' hI h => (lib_assign_ok h).2.2.trans hI) ps _ b rfl h
    show forPairs (Library.assign X) _ _ = _
    rw [h']
    congr 1
    refine lib_ext (fun i => ?_) ((hann h').trans (hann h).symm)
    have e1 := lib_part i _ _ _ h
    have e2 := lib_part i _ _ _ h'
    unfold libEntries at e1 e2
    rcases filter_drop (fun r => libSectionOf r == i) (p := (k, v)) (q := (k, w)) rfl pre mid post with
      ⟨hf, h1, h2⟩ | h1
    · rw [h1] at e1
      rw [h2] at e2
      exact Res.ok.inj (e2.symm.trans (forPairs_drop (lib_drops hk i (eq_of_beq hf)) e1))
    · rw [h1] at e1
      exact Res.ok.inj (e2.symm.trans e1)
  | @name pre post k qs mid rs n v w hs =>
    refine forPairs_less' (f := fun k v a => Library.assign X k v a)
      (p := (k, .map (qs ++ (n, v) :: (mid ++ (n, w) :: rs))))
      (q := (k, .map (qs ++ (mid ++ (n, w) :: rs)))) (fun b u hb => ?_) ha
    have hb : b.assign X k _ = .ok u := hb
    show b.assign X k _ = .ok u
    simp only [libAdding, List.mem_cons, List.not_mem_nil, or_false] at hs
    rw [lib_assign_eq] at hb ⊢
    have hsec : ∀ {i}, libKeys.lookup k.value = some i → ∀ v, libSectionOf (k, v) = i := by
      intro i h v
      simp [libSectionOf, h]
    rcases hs with h | h | h | h | h | h | h
    · rw [hsec (i := .annotations) (by rw [h]; decide)] at hb ⊢
      refine map_less (fun a ha => ?_) hb
      exact (if_pos h).trans (anns_drop ((if_pos h).symm.trans ha))
    · rw [hsec (i := .resourceTypes) (by rw [h]; decide)] at hb ⊢
      exact map_less (fun a h => untyped_drop h) hb
    · rw [hsec (i := .types) (by rw [h]; decide)] at hb ⊢
      exact map_less (fun a h => types_drop h) hb
    · rw [hsec (i := .types) (by rw [h]; decide)] at hb ⊢
      exact map_less (fun a h => types_drop h) hb
    · rw [hsec (i := .traits) (by rw [h]; decide)] at hb ⊢
      exact map_less (fun a h => untyped_drop h) hb
    · rw [hsec (i := .uses) (by rw [h]; decide)] at hb ⊢
      exact map_less (fun a h => strings_drop h) hb
    · rw [hsec (i := .securitySchemes) (by rw [h]; decide)] at hb ⊢
      exact map_less (fun a h => untyped_drop h) hb
  | @type pre post k qs rs n v w hk hr =>
    refine forPairs_less' (f := fun k v a => Library.assign X k v a)
      (p := (k, .map (qs ++ (n, v) :: rs)))
      (q := (k, .map (qs ++ (n, w) :: rs))) (fun b u hb => ?_) ha
    have hb : b.assign X k _ = .ok u := hb
    show b.assign X k _ = .ok u
    have hsec : ∀ v, libSectionOf (k, v) = .types := by
      intro v
      rcases hk with h | h <;> simp [libSectionOf, h, libKeys, List.lookup]
    rw [lib_assign_eq, hsec] at hb ⊢
    exact map_less (fun a h => loadTypes_less (fun t => C109_type X hr) h) hb

/-! ### Concrete cases -/

/-- A type with a description given twice, a property given twice, and a property with a facet
given twice. -/
example : Trimmed
    (.map [(.str "description", .str "x"), (.str "properties", .map [(.str "a", .str "integer"),
      (.str "b", .map [(.str "pattern", .str "p"),
        (.str "pattern", .str "q")]),
      (.str "a", .str "string")]), (.str "description", .str "y")])
    (.map [(.str "properties", .map [
      (.str "b", .map [(.str "pattern", .str "q")]),
      (.str "a", .str "string")]), (.str "description", .str "y")]) ∧
    (match hat Xyml.std (.map [(.str "description", .str "x"),
      (.str "properties", .map [(.str "a", .str "integer"),
      (.str "b", .map [(.str "pattern", .str "p"),
        (.str "pattern", .str "q")]),
      (.str "a", .str "string")]), (.str "description", .str "y")]) with
      | .ok _ => true | _ => false) = true := by
  refine ⟨?_, by decide +kernel⟩
  refine .trans (.entry (pre := []) (mid := [_]) (post := []) (by decide)
    (by rintro (h | h) <;> exact absurd h (by decide))) ?_
  refine .trans (.properties (pre := []) (qs := []) (mid := [_]) (rs := []) rfl rfl) ?_
  refine .property (pre := []) (qs := []) rfl rfl ?_
  exact .entry (pre := []) (mid := []) (post := []) (by decide)
    (by rintro (h | h) <;> exact absurd h (by decide))

/-- The first `type` decides on the kind although the last one is kept; enums are added up; and
an entry that is replaced is still checked. -/
example :
    (match hat Xyml.std (.map [(.str "type", .str "integer"), (.str "type", .str "string")]) with
      | .ok t => some (t.kind, t.type) | _ => none) = some (.integer, "string") ∧
    (match hat Xyml.std (.map [(.str "enum", .seq "!!seq" [.str "a"]),
        (.str "enum", .seq "!!seq" [.str "b"])]) with
      | .ok t => (enum t).map List.length | _ => none) = some 2 ∧
    (match hat Xyml.std (.map [(.str "description", .seq "!!seq" []),
        (.str "description", .str "y")]) with
      | .err e => some e | _ => none) = some .notString := by
  refine ⟨by decide +kernel, by decide +kernel, by decide +kernel⟩

/-- A document with a title, a resource and a type given twice, and a list of media types after
a single one. -/
example : ApiTrimmed
    (.map [(.str "title", .str "t"), (.str "/a", .map []), (.str "mediaType", .str "m"),
      (.str "types", .map [(.str "A", .str "integer"), (.str "A", .str "string")]),
      (.str "title", .str "u"), (.str "/a", .str "x"),
      (.str "mediaType", .seq "!!seq" [.str "n"])])
    (.map [(.str "types", .map [(.str "A", .str "string")]),
      (.str "title", .str "u"), (.str "/a", .str "x"),
      (.str "mediaType", .seq "!!seq" [.str "n"])]) := by
  refine .trans (.entry (pre := []) (mid := [_, _, _]) (by decide)) ?_
  refine .trans (.entry (pre := []) (mid := [_, _, _]) (by decide)) ?_
  refine .trans (.entry (pre := []) (mid := [_, _, _]) (by decide)) ?_
  exact .name (pre := []) (qs := []) (mid := []) (by decide) (by decide)

/-- A library with its usage, an annotation type and a trait given twice. -/
example : LibTrimmed
    (.map [(.str "usage", .str "t"),
      (.str "annotationTypes", .map [(.str "A", .map []), (.str "A", .map [])]),
      (.str "traits", .map [(.str "x", .str "a"), (.str "y", .str "b"), (.str "x", .str "c")]),
      (.str "usage", .str "u")])
    (.map [(.str "annotationTypes", .map [(.str "A", .map [])]),
      (.str "traits", .map [(.str "y", .str "b"), (.str "x", .str "c")]),
      (.str "usage", .str "u")]) := by
  refine .trans (.entry (pre := []) (mid := [_, _]) (by decide)) ?_
  refine .trans (.name (pre := []) (qs := []) (mid := []) (by decide)) ?_
  exact .name (pre := [_]) (qs := []) (mid := [_]) (by decide)

end Verif.Props
