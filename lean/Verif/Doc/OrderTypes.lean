import Verif.Doc.OrderLemmas

/-! # Exchanging entries of type definitions: proofs -/

namespace Verif.Doc.Order
open Verif Verif.Doc Verif.Doc.Spec

variable {X : Xyml}

/-! ### Examples and enums -/

theorem example_unmarshal_near (hL : Lawful X) (hX : ReadsScalars X) {v v' : Node}
    (h : Near v v') (e : Example) :
    seen exampleView (e.unmarshal X v) = seen exampleView (e.unmarshal X v') := by
  have hm : seen exampleView (mapForEach (Example.assign X) v e) =
      seen exampleView (mapForEach (Example.assign X) v' e) :=
    mapForEach_near (f := Example.assign X)
      (fun k v v' s s' hv hs => example_assign_near hX hv hs)
      (fun p q s hp hq ht => example_assign_swap hL p q s hp hq ht) h e e rfl
  rcases h with rfl | h
  · rfl
  · cases h with
    | here pre p q post hp hq h => exact hm
    | value pre k post h => exact hm
    | item tag pre post h =>
      refine seen_map _ _ (exampleVal_near hX e.kind (.inr (.item tag pre post h)))
        fun a a' ha => ?_
      simp only [exampleView, ha, Option.map_some]

theorem example_near (hL : Lawful X) (hX : ReadsScalars X) (kd : Kind) {v v' : Node}
    (h : Near v v') :
    seen exampleView (loadExample X kd v) = seen exampleView (loadExample X kd v') := by
  unfold loadExample
  cases exampleSortingHat kd with
  | ok e => exact example_unmarshal_near hL hX h e
  | _ => rfl

theorem examples_near (hL : Lawful X) (hX : ReadsScalars X) (kd : Kind) {v v' : Node}
    (h : Near v v') {m m' : OM String Example} (hm : mapView exampleView m = mapView exampleView m') :
    seen (mapView exampleView) (loadExamples X kd m v) =
      seen (mapView exampleView) (loadExamples X kd m' v') :=
  keyed_near (g := fun v => (Example.new kd).unmarshal X v)
    (fun _ _ h => example_unmarshal_near hL hX h _) h hm

theorem enumVal_near (hX : ReadsScalars X) (kd : Kind) {v v' : Node} (h : Near v v') :
    seen valView (enumVal X kd v) = seen valView (enumVal X kd v') := by
  cases kd <;>
    simp only [enumVal, Near.text hX h, Near.bool hX h, Near.int hX h, Near.flt hX h]
  all_goals simp only [seen, valView, h.un]

theorem enum_near (hX : ReadsScalars X) (kd : Kind) {v v' : Node} (h : Near v v')
    {l l' : Option (List Val)} (hl : l.map (·.map valView) = l'.map (·.map valView)) :
    seen (Option.map (List.map valView)) (loadEnum X kd l v) =
      seen (Option.map (List.map valView)) (loadEnum X kd l' v') := by
  refine seqForEach_near ?_ h l l' hl
  intro v v' s s' hv hs
  refine seen_map _ _ (enumVal_near hX kd hv) fun a a' ha => ?_
  cases s <;> cases s' <;> simp_all [pushEnum]

/-! ### The kind-specific fields -/

theorem body_cases {b b' : Body} (h : bodyView b = bodyView b') :
    b = b' ∧ b.isObject = false ∨ ∃ f f', b = .object f ∧ b' = .object f' := by
  cases b <;> cases b' <;> simp_all [bodyView, Body.isObject]

theorem body_kind {b b' : Body} (h : bodyView b = bodyView b') : b.kind = b'.kind := by
  rcases body_cases h with ⟨rfl, _⟩ | ⟨f, f', rfl, rfl⟩ <;> rfl

theorem body_isObject {b b' : Body} (h : bodyView b = bodyView b') :
    b.isObject = b'.isObject := by
  rcases body_cases h with ⟨rfl, _⟩ | ⟨f, f', rfl, rfl⟩ <;> rfl

theorem body_isArray {b b' : Body} (h : bodyView b = bodyView b') : b.isArray = b'.isArray := by
  rcases body_cases h with ⟨rfl, _⟩ | ⟨f, f', rfl, rfl⟩ <;> rfl

theorem body_near (hX : ReadsScalars X) {v v' : Node} (h : Near v v') (k : String)
    {b b' : Body} (hb : bodyView b = bodyView b') :
    (b.assign X k v).map (seen bodyView) = (b'.assign X k v').map (seen bodyView) := by
  rcases body_cases hb with ⟨rfl, ho⟩ | ⟨f, f', rfl, rfl⟩
  · congr 1
    cases b <;> simp only [Body.assign, h.str, Near.uint hX h, Near.bool hX h, Near.flt hX h,
      Near.int hX h, h.strings, h.dateFormat]
    cases ho
  · simp only [bodyView, BodyV.object.injEq] at hb
    simp only [Body.assign, h.str, Near.uint hX h, Near.bool hX h]
    split_ifs
    all_goals try rfl
    all_goals first
      | (simp only [Option.map_some, seen, bodyView, hb, h.un]; done)
      | (refine congrArg some (seen_same _ fun a => ?_); simp only [bodyView, hb])

/-! ### The shared fields -/

theorem common_near (hL : Lawful X) (hX : ReadsScalars X) (kd : Kind) (k : String)
    {v v' : Node} (hv : Near v v') {h h' : Hdr} (hh : hdrView h = hdrView h') :
    (h.assignCommon X kd k v).map (seen hdrView) =
      (h'.assignCommon X kd k v').map (seen hdrView) := by
  simp only [hdrView, HdrV.mk.injEq] at hh
  unfold Hdr.assignCommon
  rw [Near.bool hX hv]
  split_ifs
  · refine congrArg some (seen_map _ _ (example_near hL hX kd hv) fun a a' ha => ?_)
    simp only [hdrView, hh, ha, Option.map_some]
  · refine congrArg some (seen_map _ _ (examples_near hL hX kd hv hh.2.2.2.2.2.2.2.2.2.2)
      fun a a' ha => ?_)
    simp only [hdrView, hh, ha]
  · refine congrArg some (seen_map _ _ (enum_near hX kd hv hh.2.2.2.2.2.2.2.2.1)
      fun a a' ha => ?_)
    simp only [hdrView, hh]
    simp only [HdrV.mk.injEq, true_and, and_true]
    exact ha
  · refine congrArg some (seen_same _ fun a => ?_)
    simp only [hdrView, hh]
  · rfl

theorem base_near {k v v' : Node} (hv : Near v v') (s : String) {x x' : OM Scalar Node}
    (hx : mapView unordered x = mapView unordered x') :
    seen (Prod.map id (mapView unordered)) (assignBase k v s x) =
      seen (Prod.map id (mapView unordered)) (assignBase k v' s x') := by
  unfold assignBase
  rw [hv.str]
  split_ifs
  · refine seen_same _ fun a => ?_
    simp only [Prod.map, hx]
  · simp only [seen, Prod.map, view_put_congr (.str k.value) hx hv.un]

theorem ext_near (hL : Lawful X) (hX : ReadsScalars X) (k : Node)
    {v v' : Node} (hv : Near v v') {h h' : Hdr} (hh : hdrView h = hdrView h') :
    seen hdrView (h.assignExt X k v) = seen hdrView (h'.assignExt X k v') := by
  simp only [hdrView, HdrV.mk.injEq] at hh
  have hbase : seen hdrView (h.assignBase k v) = seen hdrView (h'.assignBase k v') := by
    unfold Hdr.assignBase
    rw [hh.1]
    refine seen_map _ _ (base_near hv h'.schema hh.2.1) fun a a' ha => ?_
    have h1 : a.1 = a'.1 := (Prod.ext_iff.mp ha).1
    have h2 : mapView unordered a.2 = mapView unordered a'.2 := (Prod.ext_iff.mp ha).2
    simp only [hdrView, hh, h1, h2]
  unfold Hdr.assignExt
  rw [hv.str]
  split_ifs
  · refine seen_same _ fun a => ?_
    simp only [hdrView, hh]
  · refine seen_same _ fun a => ?_
    simp only [hdrView, hh]
  · refine seen_map _ _ (xml_near hL hX hv) fun a a' ha => ?_
    simp only [hdrView, hh, ha, Option.map_some]
  · unfold annIn
    cases firstChar k.value with
    | none => rfl
    | some c =>
      simp only
      split_ifs
      · rw [show ∀ (m : OM String Ann) (w : Node) (g : Option (OM String Ann) → Res Hdr),
            ((loadAnn w).map fun a => some (m.put k.value a)).bind g =
              (loadAnn w).bind fun a => g (some (m.put k.value a)) from
          fun m w g => by cases loadAnn w <;> rfl]
        rw [show ∀ (m : OM String Ann) (w : Node) (g : Option (OM String Ann) → Res Hdr),
            ((loadAnn w).map fun a => some (m.put k.value a)).bind g =
              (loadAnn w).bind fun a => g (some (m.put k.value a)) from
          fun m w g => by cases loadAnn w <;> rfl]
        refine seen_bind _ _ (ann_near hv) fun a a' ha => ?_
        have := view_put_congr (f := mapView unordered) k.value hh.2.2.2.2.1 ha
        simp only [seen, hdrView, hh, annView, this]
      · exact hbase
  · exact hbase

theorem flat_near (hL : Lawful X) (hX : ReadsScalars X) (k : Node)
    {v v' : Node} (hv : Near v v') {h h' : Hdr} (hh : hdrView h = hdrView h') {b b' : Body}
    (hb : bodyView b = bodyView b') :
    seen (Prod.map hdrView bodyView) (assignFlat X k v h b) =
      seen (Prod.map hdrView bodyView) (assignFlat X k v' h' b') := by
  have h1 := common_near hL hX b.kind k.value hv hh
  have h2 := body_near hX hv k.value hb
  have h3 := ext_near hL hX k hv hh
  unfold assignFlat
  rw [← body_kind hb]
  cases e1 : h.assignCommon X b.kind k.value v <;>
    cases e1' : h'.assignCommon X b.kind k.value v' <;> rw [e1, e1'] at h1
  · simp only
    cases e2 : b.assign X k.value v <;> cases e2' : b'.assign X k.value v' <;> rw [e2, e2'] at h2
    · exact seen_map _ _ h3 fun a a' ha => by simp only [Prod.map, ha, hb]
    · cases h2
    · cases h2
    · exact seen_map _ _ (Option.some.inj h2) fun a a' ha => by simp only [Prod.map, ha, hh]
  · cases h1
  · cases h1
  · exact seen_map _ _ (Option.some.inj h1) fun a a' ha => by simp only [Prod.map, ha, hb]

/-! ### One entry of a type -/

/-- The readings that go through data types agree on two values (auxiliary). -/
structure Alike (X : Xyml) (v v' : Node) : Prop where
  typ : seen typeView (hat X v) = seen typeView (hat X v')
  props : ∀ m m', mapView typeView m = mapView typeView m' →
    seen (mapView typeView) (loadProps X v m) = seen (mapView typeView) (loadProps X v' m')
  types : ∀ m m', mapView typeView m = mapView typeView m' →
    seen (mapView typeView) (loadTypes X v m) = seen (mapView typeView) (loadTypes X v' m')
  facets : ∀ m m', mapView (mapView typeView) m = mapView (mapView typeView) m' →
    seen (mapView (mapView typeView)) (loadFacets X v m) =
      seen (mapView (mapView typeView)) (loadFacets X v' m')

/-- What `loadProp` puts (auxiliary). -/
def asProperty (X : Xyml) (v : Node) : Res DT :=
  (hat X v).bind fun t => if t.isProperty then .ok t else .panic .notProperty

theorem loadProp_keyed (X : Xyml) : (fun k v m => loadProp X (k, v) m) = keyed (asProperty X) := by
  funext k v m
  unfold loadProp keyed asProperty
  cases asString k with
  | ok s =>
    cases hat X v with
    | ok t => simp only [Res.bind_ok]; split_ifs <;> rfl
    | _ => rfl
  | _ => rfl

theorem loadType_keyed (X : Xyml) : (fun k v m => loadType X (k, v) m) = keyed (hat X) := by
  funext k v m
  unfold loadType keyed
  cases asString k <;> cases hat X v <;> rfl

theorem loadFacet_keyed (X : Xyml) : (fun k v m => loadFacet X (k, v) m) =
    keyed (fun v => loadTypes X v (OM.empty true)) := by
  funext k v m
  unfold loadFacet keyed
  simp only
  cases asString k <;> cases loadTypes X v (OM.empty true) <;> rfl

theorem isProperty_view {t t' : DT} (h : typeView t = typeView t') :
    t.isProperty = t'.isProperty := by
  cases t <;> cases t' <;> first
    | rfl
    | (rw [typeView_ext] at h; simp only [typeView] at h; cases h)

theorem asProperty_congr {v v' : Node} (h : seen typeView (hat X v) = seen typeView (hat X v')) :
    seen typeView (asProperty X v) = seen typeView (asProperty X v') := by
  refine seen_bind _ _ h fun a a' ha => ?_
  rw [isProperty_view ha]
  split_ifs
  · simp only [seen, ha]
  · rfl

theorem keyed_state {V W : Type} {view : V → W} {g : Node → Res V} (n : Node) (m m' : OM String V)
    (hm : mapView view m = mapView view m') :
    seen (mapView view) (mapForEach (keyed g) n m) =
      seen (mapView view) (mapForEach (keyed g) n m') := by
  cases n with
  | map ps => exact forPairs_state (f := keyed g) (fun k v s s' hs => keyed_congr rfl hs) ps m m' hm
  | _ => rfl

theorem Alike.refl (X : Xyml) (v : Node) : Alike X v v where
  typ := rfl
  props m m' hm := by rw [loadProps_eq, loadProps_eq, loadProp_keyed]; exact keyed_state v m m' hm
  types m m' hm := by rw [loadTypes_eq, loadTypes_eq, loadType_keyed]; exact keyed_state v m m' hm
  facets m m' hm := by
    rw [loadFacets_eq, loadFacets_eq, loadFacet_keyed]; exact keyed_state v m m' hm

theorem assign_near (hL : Lawful X) (hX : ReadsScalars X) (k : Node) {v v' : Node}
    (hv : Near v v') (ha : Alike X v v') {t t' : DT} (ht : typeView t = typeView t') :
    seen typeView (assign X (k, v) t) = seen typeView (assign X (k, v') t') := by
  rcases t with ⟨i, s, x⟩ | ⟨h, b, fs, ps, it⟩ <;> rcases t' with ⟨i', s', x'⟩ | ⟨h', b', fs', ps', it'⟩
  · simp only [typeView, DTV.basic.injEq] at ht
    obtain ⟨rfl, rfl, hx⟩ := ht
    unfold assign
    refine seen_map _ _ (base_near hv s hx) fun a a' ha => ?_
    have h1 : a.1 = a'.1 := (Prod.ext_iff.mp ha).1
    have h2 : mapView unordered a.2 = mapView unordered a'.2 := (Prod.ext_iff.mp ha).2
    simp only [typeView, h1, h2]
  · rw [typeView_ext] at ht; simp only [typeView] at ht; cases ht
  · rw [typeView_ext] at ht; simp only [typeView] at ht; cases ht
  · rw [typeView_ext, typeView_ext] at ht
    simp only [DTV.ext.injEq] at ht
    obtain ⟨hh, hb, hfs, hps, hit⟩ := ht
    unfold assign
    rw [body_isObject hb, body_isArray hb]
    split_ifs
    · refine seen_map _ _ (ha.facets _ _ hfs) fun a a' e => ?_
      rw [typeView_ext, typeView_ext, hh, hb, hps, hit, e]
    · refine seen_map _ _ (ha.props _ _ hps) fun a a' e => ?_
      rw [typeView_ext, typeView_ext, hh, hb, hfs, hit, e]
    · refine seen_map _ _ ha.typ fun a a' e => ?_
      rw [typeView_ext, typeView_ext, hh, hb, hfs, hps, Option.map_some, Option.map_some, e]
    · refine seen_map _ _ (flat_near hL hX k hv hh hb) fun a a' e => ?_
      have h1 : hdrView a.1 = hdrView a'.1 := congrArg Prod.fst e
      have h2 : bodyView a.2 = bodyView a'.2 := congrArg Prod.snd e
      rw [typeView_ext, typeView_ext, h1, h2, hfs, hps, hit]

/-! ### Two entries of a type -/

/-- Two entries of different sections can be exchanged (auxiliary). -/
theorem sections_swap {σ : Type} {f : Node → Node → σ → Res σ} {ι : Type} [DecidableEq ι]
    {I : σ → Prop} {c : Node × Node → ι} {R : ι → σ → σ → Prop} (H : Sections f ι I c R)
    {s : σ} (hs : I s) {p q : Node × Node} (hc : c p ≠ c q)
    (hU : ∀ {ps qs a b}, forPairs f ps s = .ok a → forPairs f qs s = .ok b →
      (∀ i, R i a b) → a = b) {τ : Type} (view : σ → τ) :
    seen view ((f p.1 p.2 s).bind (f q.1 q.2)) = seen view ((f q.1 q.2 s).bind (f p.1 p.2)) := by
  have h2 : ∀ x y : Node × Node, (f x.1 x.2 s).bind (f y.1 y.2) = forPairs f [x, y] s := by
    intro x y
    simp only [forPairs]
    cases f x.1 x.2 s with
    | ok a => simp only [Res.bind_ok]; cases f y.1 y.2 a <;> rfl
    | _ => rfl
  have hf : ∀ x y : Node × Node, c x ≠ c y → ∀ i,
      ([x, y].filter fun p => c p = i) = [y, x].filter fun p => c p = i := by
    intro x y hxy i
    by_cases h1 : c x = i
    · have h2 : c y ≠ i := fun h => hxy (h1.trans h.symm)
      simp [List.filter, h1, h2]
    · by_cases h2 : c y = i <;> simp [List.filter, h1, h2]
  have one : ∀ x y : Node × Node, c x ≠ c y → ∀ a, forPairs f [x, y] s = .ok a →
      forPairs f [y, x] s = .ok a := by
    intro x y hxy a ha
    obtain ⟨b, hb, hR⟩ := H.reorder hs (hf x y hxy) ha
    rw [hb, hU ha hb hR]
  rw [h2, h2]
  cases e : forPairs f [p, q] s with
  | ok a => rw [one p q hc a e]
  | err _ =>
    cases e' : forPairs f [q, p] s with
    | ok b => rw [one q p (Ne.symm hc) b e'] at e; cases e
    | _ => rfl
  | panic _ =>
    cases e' : forPairs f [q, p] s with
    | ok b => rw [one q p (Ne.symm hc) b e'] at e; cases e
    | _ => rfl

theorem facet_shared {kd : Kind} {p q : Node × Node} (h : facetOf kd p = facetOf kd q)
    (ht : sameTarget p.1.value q.1.value = false) :
    facetOf kd p = .extra ∨ facetOf kd p = .annotations := by
  have hnot : ∀ r : Node × Node, (facetNames kd).contains r.1.value = false →
      facetOf kd r = .extra ∨ facetOf kd r = .annotations := by
    intro r hr
    unfold facetOf
    rw [hr]
    simp only [Bool.false_eq_true, if_false]
    split_ifs
    · exact .inr rfl
    · exact .inl rfl
  cases hp : (facetNames kd).contains p.1.value with
  | false => exact hnot p hp
  | true =>
    cases hq : (facetNames kd).contains q.1.value with
    | false => rw [h]; exact hnot q hq
    | true =>
      exfalso
      have hall : ∀ a ∈ facetNames kd, ∀ b ∈ facetNames kd,
          (facetNamed.lookup a).getD .extra = (facetNamed.lookup b).getD .extra →
          sameTarget a b = true := by cases kd <;> decide
      unfold facetOf at h
      rw [hp, hq] at h
      have := hall _ (by simpa using hp) _ (by simpa using hq) h
      rw [this] at ht
      cases ht

theorem assign_swap (p q : Node × Node) (t : DT) (_hp : p.1.isStr = true)
    (_hq : q.1.isStr = true) (ht : sameTarget p.1.value q.1.value = false) :
    seen typeView ((assign X (p.1, p.2) t).bind fun t => assign X (q.1, q.2) t) =
      seen typeView ((assign X (q.1, q.2) t).bind fun t => assign X (p.1, p.2) t) := by
  by_cases hc : facetOf t.kind p = facetOf t.kind q
  · have hne := ne_of_target ht
    have hk : Scalar.str p.1.value ≠ .str q.1.value := fun e => hne (Scalar.str.inj e)
    have hstep : ∀ x y : Node × Node, ((assign X (x.1, x.2) t).bind fun t => assign X (y.1, y.2) t) =
        (t.step X x.1 x.2 (facetOf t.kind x)).bind fun u =>
          u.step X y.1 y.2 (facetOf t.kind y) := by
      intro x y
      cases e : assign X (x.1, x.2) t with
      | ok u =>
        rw [← assign_eq, e, Res.bind_ok, Res.bind_ok, assign_eq, assign_kind e]
      | _ => rw [← assign_eq, e]; rfl
    rw [hstep p q, hstep q p, ← hc]
    rcases facet_shared hc ht with he | he
    · rw [he]
      have hkd : ∀ x, (t.setExtra x).kind = t.kind := fun x => by cases t <;> rfl
      have hex : ∀ x, (t.setExtra x).extra = x := fun x => by cases t <;> rfl
      have hss : ∀ x y, (t.setExtra x).setExtra y = t.setExtra y := fun x y => by cases t <;> rfl
      have hview : ∀ x y, mapView unordered x = mapView unordered y →
          typeView (t.setExtra x) = typeView (t.setExtra y) := by
        intro x y hxy
        cases t with
        | basic i s z => simp only [DT.setExtra, typeView, hxy]
        | ext h b fs ps it => simp only [DT.setExtra, typeView_ext, hdrView, hxy]
      have hrun : ∀ x y : Node × Node, ((t.step X x.1 x.2 .extra).bind fun u =>
          u.step X y.1 y.2 .extra) =
          if !isBasic t.kind && x.1.isStr && x.1.value == "" then .panic .emptyKey
          else if !isBasic t.kind && y.1.isStr && y.1.value == "" then .panic .emptyKey
          else .ok (t.setExtra ((t.extra.put (.str x.1.value) x.2).put (.str y.1.value) y.2)) := by
        intro x y
        simp only [step_extra]
        split
        · rfl
        · simp only [Res.bind_ok, hkd, hex, hss]
      rw [hrun, hrun]
      split_ifs <;> first
        | rfl
        | (simp only [seen]; rw [hview _ _ (view_put_comm _ _ _ hk)])
    · rw [he]
      cases t with
      | basic i s x =>
        have := (facetOf_annotations_iff.mp he).1
        cases i <;> cases this
      | ext h b fs ps it =>
        have hrun : ∀ x y : Node × Node, (((DT.ext h b fs ps it).step X x.1 x.2 .annotations).bind
            fun u => u.step X y.1 y.2 .annotations) =
            (loadAnn x.2).bind fun a => (loadAnn y.2).map fun c => DT.ext
              { h with annotations := (h.annotations.put x.1.value a).put y.1.value c }
              b fs ps it := by
          intro x y
          simp only [step_annotations]
          cases loadAnn x.2 <;> rfl
        rw [hrun, hrun]
        cases loadAnn p.2 <;> cases loadAnn q.2 <;>
          simp only [Res.map, Res.bind, seen, typeView_ext, hdrView, annView]
        rw [view_put_comm _ _ _ hne]
  · exact sections_swap (assign_sections X t.kind) (s := t) rfl hc
      (fun h1 h2 hR => by
        rw [← assignAll_eq] at h1 h2
        refine eq_of_look ((assignAll_kind h1).trans (assignAll_kind h2).symm) ?_ hR
        rw [assignAll_eq] at h1 h2
        have hd := fun ps u => forPairs_inv (f := fun k v t => assign X (k, v) t)
          (I := fun u => dflt u = dflt t) (fun k v s s' hI h => (assign_dflt h).trans hI) ps t u rfl
        rw [hd _ _ h1, hd _ _ h2]) typeView

/-! ### Choosing the kind -/

theorem siftScan_append (pre ps : List (Node × Node)) (a b : Bool) :
    siftScan (pre ++ ps) a b = match siftScan pre a b with
      | (some v, a, b) => (some v, a, b)
      | (none, a, b) => siftScan ps a b := by
  induction pre generalizing a b with
  | nil => rfl
  | cons p pre ih =>
    obtain ⟨k, v⟩ := p
    simp only [List.cons_append, siftScan]
    split_ifs
    · rfl
    · exact ih _ _

theorem sift_here (pre : List (Node × Node)) (p q : Node × Node) (post : List (Node × Node))
    (ht : sameTarget p.1.value q.1.value = false) :
    siftType (pre ++ p :: q :: post) = siftType (pre ++ q :: p :: post) := by
  obtain ⟨k, v⟩ := p
  obtain ⟨l, w⟩ := q
  have hno : ¬((k.value = "type" ∨ k.value = "schema") ∧ (l.value = "type" ∨ l.value = "schema")) := by
    rintro ⟨h1, h2⟩
    rcases h1 with h1 | h1 <;> rcases h2 with h2 | h2 <;> simp [sameTarget, h1, h2] at ht
  unfold siftType
  rw [siftScan_append, siftScan_append]
  rcases siftScan pre false false with ⟨_ | x, a, b⟩
  · simp only [siftScan]
    by_cases h1 : k.value = "type" ∨ k.value = "schema"
    · have h2 : ¬(l.value = "type" ∨ l.value = "schema") := fun h => hno ⟨h1, h⟩
      rw [if_pos h1, if_neg h2, if_pos h1]
    · by_cases h2 : l.value = "type" ∨ l.value = "schema"
      · rw [if_neg h1, if_pos h2, if_pos h2]
      · rw [if_neg h1, if_neg h2, if_neg h2, if_neg h1]
        rw [Bool.or_assoc, Bool.or_comm (k.value == "properties"), ← Bool.or_assoc,
          Bool.or_assoc b, Bool.or_comm (k.value == "items"), ← Bool.or_assoc]
  · rfl

theorem sift_value (pre : List (Node × Node)) (k : Node) (post : List (Node × Node))
    {v v' : Node} (h : Swap v v') :
    siftType (pre ++ (k, v) :: post) = siftType (pre ++ (k, v') :: post) := by
  unfold siftType
  rw [siftScan_append, siftScan_append]
  rcases siftScan pre false false with ⟨_ | x, a, b⟩
  · simp only [siftScan]
    split_ifs
    · cases h <;> rfl
    · rfl
  · rfl

/-! ### Types -/

theorem alike (hL : Lawful X) (hX : ReadsScalars X) {n n' : Node} (h : Swap n n') :
    Alike X n n' := by
  have hA : ∀ k v s s', typeView s = typeView s' →
      seen typeView (assign X (k, v) s) = seen typeView (assign X (k, v) s') :=
    fun k v s s' => assign_near hL hX k (.refl v) (.refl X v)
  induction h with
  | here pre p q post hp hq h =>
    refine ⟨?_, fun m m' hm => ?_, fun m m' hm => ?_, fun m m' hm => ?_⟩
    · unfold hat
      rw [sift_here pre p q post h]
      cases siftType (pre ++ q :: p :: post) with
      | ok t =>
        simp only [Res.bind_ok, assignAll_eq]
        exact forPairs_here (f := fun k v t => assign X (k, v) t) hA
          (fun s => assign_swap p q s hp hq h) pre post t t rfl
      | _ => rfl
    · rw [loadProps_eq, loadProps_eq, loadProp_keyed]
      exact forPairs_here (f := keyed _) (fun _ _ _ _ hs => keyed_congr rfl hs)
        (fun s => keyed_swap p q s hp hq h) pre post m m' hm
    · rw [loadTypes_eq, loadTypes_eq, loadType_keyed]
      exact forPairs_here (f := keyed _) (fun _ _ _ _ hs => keyed_congr rfl hs)
        (fun s => keyed_swap p q s hp hq h) pre post m m' hm
    · rw [loadFacets_eq, loadFacets_eq, loadFacet_keyed]
      exact forPairs_here (f := keyed _) (fun _ _ _ _ hs => keyed_congr rfl hs)
        (fun s => keyed_swap p q s hp hq h) pre post m m' hm
  | value pre k post h ih =>
    refine ⟨?_, fun m m' hm => ?_, fun m m' hm => ?_, fun m m' hm => ?_⟩
    · unfold hat
      rw [sift_value pre k post h]
      cases siftType (pre ++ (k, _) :: post) with
      | ok t =>
        simp only [Res.bind_ok, assignAll_eq]
        exact forPairs_value (f := fun k v t => assign X (k, v) t) hA
          (fun s => assign_near hL hX k (.inr h) ih rfl) pre post t t rfl
      | _ => rfl
    · rw [loadProps_eq, loadProps_eq, loadProp_keyed]
      exact forPairs_value (f := keyed _) (fun _ _ _ _ hs => keyed_congr rfl hs)
        (fun s => keyed_congr (asProperty_congr ih.typ) rfl) pre post m m' hm
    · rw [loadTypes_eq, loadTypes_eq, loadType_keyed]
      exact forPairs_value (f := keyed _) (fun _ _ _ _ hs => keyed_congr rfl hs)
        (fun s => keyed_congr ih.typ rfl) pre post m m' hm
    · rw [loadFacets_eq, loadFacets_eq, loadFacet_keyed]
      exact forPairs_value (f := keyed _) (fun _ _ _ _ hs => keyed_congr rfl hs)
        (fun s => keyed_congr (ih.types _ _ rfl) rfl) pre post m m' hm
  | item tag pre post h ih =>
    refine ⟨?_, fun m m' hm => ?_, fun m m' hm => ?_, fun m m' hm => ?_⟩
    · unfold hat; rfl
    · unfold loadProps; rfl
    · unfold loadTypes; rfl
    · unfold loadFacets; rfl

theorem alike_near (hL : Lawful X) (hX : ReadsScalars X) {n n' : Node} (h : Near n n') :
    Alike X n n' := by
  rcases h with rfl | h
  · exact .refl X n
  · exact alike hL hX h

end Verif.Doc.Order
