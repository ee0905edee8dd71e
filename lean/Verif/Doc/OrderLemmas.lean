import Verif.Doc.OrderSpec
import Verif.Doc.ApiLemmas
import Verif.Doc.Laws

/-! # Exchanging entries: proofs -/

namespace Verif.Doc.Order
open Verif Verif.Doc Verif.Doc.Spec

/-! ### What a parse shows -/

theorem seen_bind {α β τ : Type} {r r' : Res α} {f f' : α → Res β} (u : α → τ)
    {ω : Type} (w : β → ω) (h : seen u r = seen u r')
    (hf : ∀ a a', u a = u a' → seen w (f a) = seen w (f' a')) :
    seen w (r.bind f) = seen w (r'.bind f') := by
  cases r <;> cases r' <;> first
    | exact hf _ _ (Option.some.inj h)
    | rfl
    | cases h

theorem seen_map {α β τ : Type} {r r' : Res α} {f f' : α → β} (u : α → τ)
    {ω : Type} (w : β → ω) (h : seen u r = seen u r')
    (hf : ∀ a a', u a = u a' → w (f a) = w (f' a')) :
    seen w (r.map f) = seen w (r'.map f') :=
  seen_bind u w h fun a a' e => by simp only [seen, hf a a' e]

theorem seen_same {α β : Type} {r : Res α} {f f' : α → β} {ω : Type} (w : β → ω)
    (hf : ∀ a, w (f a) = w (f' a)) : seen w (r.map f) = seen w (r.map f') :=
  seen_map id w rfl fun a a' e => by cases e; exact hf a

/-! ### Dictionaries -/

theorem get_put_self {K V : Type} [DecidableEq K] (m : OM K V) (k : K) (v : V) :
    (m.put k v).get k = some v := by
  rw [OM.get_put, if_pos rfl]

theorem get_put_ne {K V : Type} [DecidableEq K] (m : OM K V) {k l : K} (v : V) (h : l ≠ k) :
    (m.put k v).get l = m.get l := by
  rw [OM.get_put, if_neg (Ne.symm h)]

section Maps
variable {K V W : Type} [DecidableEq K] {f : V → W}

theorem view_put (m : OM K V) (k : K) (v : V) :
    mapView f (m.put k v) =
      ⟨m.omap, fun l => if l = k then some (f v) else (m.get l).map f⟩ := by
  simp only [mapView, MapV.mk.injEq]
  refine ⟨rfl, funext fun l => ?_⟩
  by_cases h : l = k
  · subst h; rw [get_put_self]; simp
  · rw [get_put_ne _ _ h, if_neg h]

theorem view_put_congr {m m' : OM K V} {v v' : V} (k : K) (hm : mapView f m = mapView f m')
    (hv : f v = f v') : mapView f (m.put k v) = mapView f (m'.put k v') := by
  simp only [mapView, MapV.mk.injEq] at hm
  rw [view_put, view_put, hm.1, hv]
  congr 1
  funext l
  rw [congrFun hm.2 l]

theorem view_put_comm (m : OM K V) {k l : K} (v w : V) (h : k ≠ l) :
    mapView f ((m.put k v).put l w) = mapView f ((m.put l w).put k v) := by
  rw [view_put, view_put]
  simp only [MapV.mk.injEq]
  refine ⟨rfl, funext fun j => ?_⟩
  by_cases h1 : j = l
  · subst h1
    rw [if_pos rfl, if_neg (Ne.symm h), get_put_self]; rfl
  · rw [if_neg h1]
    by_cases h2 : j = k
    · subst h2; rw [if_pos rfl, get_put_self]; rfl
    · rw [if_neg h2, get_put_ne _ _ h2, get_put_ne _ _ h1]

end Maps

theorem typesLook_eq (es : List (String × DT)) (k : String) :
    typesLook es k = ((es.find? fun e => e.1 == k).map (·.2)).map typeView := by
  induction es with
  | nil => rfl
  | cons e es ih =>
    obtain ⟨s, t⟩ := e
    rw [typesLook, List.find?_cons]
    by_cases h : s == k
    · simp [h]
    · simp [h, ih]

theorem typesView_eq (m : OM String DT) : (⟨m.omap, typesLook m.ents⟩ : MapV String DTV) =
    mapView typeView m := by
  simp only [mapView, MapV.mk.injEq, true_and]
  funext k
  exact typesLook_eq _ _

theorem facetsLook_eq (es : List (String × OM String DT)) (k : String) :
    facetsLook es k = ((es.find? fun e => e.1 == k).map (·.2)).map (mapView typeView) := by
  induction es with
  | nil => rfl
  | cons e es ih =>
    obtain ⟨s, ⟨t, o⟩⟩ := e
    rw [facetsLook, List.find?_cons]
    by_cases h : s == k
    · simp [h]; exact typesView_eq ⟨t, o⟩
    · simp [h, ih]

theorem facetsView_eq (m : OM String (OM String DT)) :
    (⟨m.omap, facetsLook m.ents⟩ : MapV String (MapV String DTV)) =
    mapView (mapView typeView) m := by
  simp only [mapView, MapV.mk.injEq, true_and]
  funext k
  exact facetsLook_eq _ _

theorem typeView_ext (h : Hdr) (b : Body) (fs : OM String (OM String DT)) (ps : OM String DT)
    (it : Option DT) : typeView (.ext h b fs ps it) =
      .ext (hdrView h) (bodyView b) (mapView (mapView typeView) fs) (mapView typeView ps)
        (it.map typeView) := by
  obtain ⟨fs, fo⟩ := fs
  obtain ⟨ps, po⟩ := ps
  rw [typeView, ← facetsView_eq, ← typesView_eq]
  cases it <;> rfl

/-! ### Loops -/

section Loops
variable {σ τ : Type} {view : σ → τ} {f : Node → Node → σ → Res σ}

theorem forPairs_state
    (hA : ∀ k v s s', view s = view s' → seen view (f k v s) = seen view (f k v s')) :
    ∀ ps s s', view s = view s' → seen view (forPairs f ps s) = seen view (forPairs f ps s') := by
  intro ps
  induction ps with
  | nil => intro s s' h; simp [forPairs, seen, h]
  | cons p ps ih => intro s s' h; exact seen_bind view view (hA _ _ _ _ h) ih

theorem forPairs_here {p q : Node × Node}
    (hA : ∀ k v s s', view s = view s' → seen view (f k v s) = seen view (f k v s'))
    (hS : ∀ s, seen view ((f p.1 p.2 s).bind (f q.1 q.2)) =
      seen view ((f q.1 q.2 s).bind (f p.1 p.2)))
    (pre post : List (Node × Node)) (s s' : σ) (hs : view s = view s') :
    seen view (forPairs f (pre ++ p :: q :: post) s) =
      seen view (forPairs f (pre ++ q :: p :: post) s') := by
  rw [forPairs_append, forPairs_append]
  refine seen_bind view view (forPairs_state hA pre s s' hs) fun a a' ha => ?_
  have h1 : ∀ (x y : Node × Node) (a : σ), forPairs f (x :: y :: post) a =
      ((f x.1 x.2 a).bind (f y.1 y.2)).bind (forPairs f post) := by
    intro x y a
    simp only [forPairs]
    cases f x.1 x.2 a <;> rfl
  rw [h1, h1]
  refine seen_bind view view ?_ (forPairs_state hA post)
  rw [hS a]
  exact seen_bind view view (hA _ _ _ _ ha) fun b b' hb => hA _ _ _ _ hb

theorem forPairs_value {k v v' : Node}
    (hA : ∀ k v s s', view s = view s' → seen view (f k v s) = seen view (f k v s'))
    (hV : ∀ s, seen view (f k v s) = seen view (f k v' s))
    (pre post : List (Node × Node)) (s s' : σ) (hs : view s = view s') :
    seen view (forPairs f (pre ++ (k, v) :: post) s) =
      seen view (forPairs f (pre ++ (k, v') :: post) s') := by
  rw [forPairs_append, forPairs_append]
  refine seen_bind view view (forPairs_state hA pre s s' hs) fun a a' ha => ?_
  exact seen_bind view view ((hA _ _ _ _ ha).trans (hV a')) (forPairs_state hA post)

/-- A loop over a mapping whose step looks at values up to order is a reading up to order. -/
theorem mapForEach_swap
    (hA : ∀ k v s s', view s = view s' → seen view (f k v s) = seen view (f k v s'))
    (hV : ∀ k v v' s, Swap v v' → seen view (f k v s) = seen view (f k v' s))
    (hS : ∀ (p q : Node × Node) s, p.1.isStr = true → q.1.isStr = true →
      sameTarget p.1.value q.1.value = false →
      seen view ((f p.1 p.2 s).bind (f q.1 q.2)) = seen view ((f q.1 q.2 s).bind (f p.1 p.2)))
    {n n' : Node} (h : Swap n n') (s s' : σ) (hs : view s = view s') :
    seen view (mapForEach f n s) = seen view (mapForEach f n' s') := by
  cases h with
  | here pre p q post hp hq h => exact forPairs_here hA (fun s => hS p q s hp hq h) pre post s s' hs
  | value pre k post h => exact forPairs_value hA (fun s => hV k _ _ s h) pre post s s' hs
  | item tag pre post h => rfl

variable {g : Node → σ → Res σ}

theorem forItems_state
    (hA : ∀ v s s', view s = view s' → seen view (g v s) = seen view (g v s')) :
    ∀ ns s s', view s = view s' → seen view (forItems g ns s) = seen view (forItems g ns s') := by
  intro ns
  induction ns with
  | nil => intro s s' h; simp [forItems, seen, h]
  | cons p ps ih => intro s s' h; exact seen_bind view view (hA _ _ _ h) ih

theorem forItems_append (as bs : List Node) (s : σ) :
    forItems g (as ++ bs) s = (forItems g as s).bind (forItems g bs) := by
  induction as generalizing s with
  | nil => rfl
  | cons a as ih =>
    simp only [List.cons_append, forItems]
    cases g a s <;> simp [Res.bind, ih]

theorem seqForEach_swap
    (hA : ∀ v s s', view s = view s' → seen view (g v s) = seen view (g v s'))
    (hV : ∀ v v' s, Swap v v' → seen view (g v s) = seen view (g v' s))
    {n n' : Node} (h : Swap n n') (s s' : σ) (hs : view s = view s') :
    seen view (seqForEach g n s) = seen view (seqForEach g n' s') := by
  cases h with
  | here => rfl
  | value => rfl
  | item tag pre post h =>
    simp only [seqForEach, forItems_append, forItems]
    refine seen_bind view view (forItems_state hA pre s s' hs) fun a a' ha => ?_
    exact seen_bind view view ((hA _ _ _ ha).trans (hV _ _ _ h)) (forItems_state hA post)

end Loops

/-! ### Values that differ by at most one exchange -/

/-- Equal, or one exchange apart (auxiliary). -/
def Near (v v' : Node) : Prop := v = v' ∨ Swap v v'

theorem Near.refl (v : Node) : Near v v := .inl rfl

theorem Near.un {v v' : Node} (h : Near v v') : unordered v = unordered v' := by
  rcases h with rfl | h
  · rfl
  · exact Quot.sound h

theorem swap_not_scalar {v v' : Node} (h : Swap v v') :
    (∀ t s, v ≠ .scalar t s) ∧ ∀ t s, v' ≠ .scalar t s := by
  cases h <;> exact ⟨fun _ _ h => Node.noConfusion h, fun _ _ h => Node.noConfusion h⟩

theorem Near.isStr {v v' : Node} (h : Near v v') : v.isStr = v'.isStr := by
  rcases h with rfl | h
  · rfl
  · cases h <;> rfl

theorem Near.value {v v' : Node} (h : Near v v') : v.value = v'.value := by
  rcases h with rfl | h
  · rfl
  · cases h <;> rfl

theorem Near.str {v v' : Node} (h : Near v v') : asString v = asString v' := by
  simp only [asString, h.isStr, h.value]

theorem Near.dateFormat {v v' : Node} (h : Near v v') : loadDateFormat v = loadDateFormat v' := by
  simp only [loadDateFormat, h.isStr, h.value]

section Conv
variable {X : Xyml} (hX : ReadsScalars X)
include hX

theorem Near.bool {v v' : Node} (h : Near v v') : asBool X v = asBool X v' := by
  rcases h with rfl | h
  · rfl
  · simp only [asBool, (hX _ (swap_not_scalar h).1).2.2.1, (hX _ (swap_not_scalar h).2).2.2.1]

theorem Near.int {v v' : Node} (h : Near v v') : asInt X v = asInt X v' := by
  rcases h with rfl | h
  · rfl
  · simp only [asInt, (hX _ (swap_not_scalar h).1).1, (hX _ (swap_not_scalar h).2).1]

theorem Near.flt {v v' : Node} (h : Near v v') : asFlt X v = asFlt X v' := by
  rcases h with rfl | h
  · rfl
  · simp only [asFlt, (hX _ (swap_not_scalar h).1).2.1, (hX _ (swap_not_scalar h).2).2.1]

theorem Near.uint {v v' : Node} (h : Near v v') : asUint X v = asUint X v' := by
  simp only [asUint, Near.int hX h]

theorem Near.text {v v' : Node} (h : Near v v') : X.toStr v = X.toStr v' := by
  rcases h with rfl | h
  · rfl
  · rw [(hX _ (swap_not_scalar h).1).2.2.2, (hX _ (swap_not_scalar h).2).2.2.2]

end Conv

theorem Near.strings {v v' : Node} (h : Near v v') : asStringList v = asStringList v' := by
  rcases h with rfl | h
  · rfl
  · cases h with
    | here => rfl
    | value => rfl
    | item tag pre post h =>
      simp only [asStringList, seqForEach, forItems_append, forItems, Near.str (.inr h)]

section LoopsNear
variable {σ τ : Type} {view : σ → τ}

theorem mapForEach_near {f : Node → Node → σ → Res σ}
    (hV : ∀ k v v' s s', Near v v' → view s = view s' →
      seen view (f k v s) = seen view (f k v' s'))
    (hS : ∀ (p q : Node × Node) s, p.1.isStr = true → q.1.isStr = true →
      sameTarget p.1.value q.1.value = false →
      seen view ((f p.1 p.2 s).bind (f q.1 q.2)) = seen view ((f q.1 q.2 s).bind (f p.1 p.2)))
    {n n' : Node} (h : Near n n') (s s' : σ) (hs : view s = view s') :
    seen view (mapForEach f n s) = seen view (mapForEach f n' s') := by
  have hA : ∀ k v s s', view s = view s' → seen view (f k v s) = seen view (f k v s') :=
    fun k v s s' => hV k v v s s' (.refl v)
  rcases h with rfl | h
  · cases n with
    | map ps => exact forPairs_state hA ps s s' hs
    | _ => rfl
  · exact mapForEach_swap hA (fun k v v' s h => hV k v v' s s (.inr h) rfl) hS h s s' hs

theorem seqForEach_near {g : Node → σ → Res σ}
    (hV : ∀ v v' s s', Near v v' → view s = view s' → seen view (g v s) = seen view (g v' s'))
    {n n' : Node} (h : Near n n') (s s' : σ) (hs : view s = view s') :
    seen view (seqForEach g n s) = seen view (seqForEach g n' s') := by
  have hA : ∀ v s s', view s = view s' → seen view (g v s) = seen view (g v s') :=
    fun v s s' => hV v v s s' (.refl v)
  rcases h with rfl | h
  · cases n with
    | seq t ns => exact forItems_state hA ns s s' hs
    | _ => rfl
  · exact seqForEach_swap hA (fun v v' s h => hV v v' s s (.inr h) rfl) h s s' hs

end LoopsNear

theorem ne_of_target {a b : String} (h : sameTarget a b = false) : a ≠ b := by
  rintro rfl
  simp [sameTarget] at h

/-! ### Dictionary sections -/

section Keyed
variable {V W : Type} {view : V → W} {g : Node → Res V}

/-- The loop body of every dictionary section (auxiliary). -/
def keyed (g : Node → Res V) (k v : Node) (m : OM String V) : Res (OM String V) :=
  (asString k).bind fun s => (g v).map fun t => m.put s t

theorem keyed_congr {k v v' : Node} {m m' : OM String V} (hg : seen view (g v) = seen view (g v'))
    (hm : mapView view m = mapView view m') :
    seen (mapView view) (keyed g k v m) = seen (mapView view) (keyed g k v' m') := by
  unfold keyed
  cases asString k with
  | ok s => exact seen_map view _ hg fun a a' ha => view_put_congr s hm ha
  | _ => rfl

theorem keyed_swap (p q : Node × Node) (m : OM String V) (hp : p.1.isStr = true)
    (hq : q.1.isStr = true) (h : sameTarget p.1.value q.1.value = false) :
    seen (mapView view) ((keyed g p.1 p.2 m).bind (keyed g q.1 q.2)) =
      seen (mapView view) ((keyed g q.1 q.2 m).bind (keyed g p.1 p.2)) := by
  change seen _ ((keyed g p.1 p.2 m).bind fun m => keyed g q.1 q.2 m) =
    seen _ ((keyed g q.1 q.2 m).bind fun m => keyed g p.1 p.2 m)
  simp only [keyed, asString, hp, hq, if_true, Res.bind_ok]
  cases g p.2 <;> cases g q.2 <;> simp only [Res.map, Res.bind, seen]
  rw [view_put_comm _ _ _ (ne_of_target h)]

theorem keyed_near (hg : ∀ v v', Near v v' → seen view (g v) = seen view (g v'))
    {n n' : Node} (h : Near n n') {m m' : OM String V} (hm : mapView view m = mapView view m') :
    seen (mapView view) (mapForEach (keyed g) n m) =
      seen (mapView view) (mapForEach (keyed g) n' m') :=
  mapForEach_near (f := keyed g) (fun _ _ _ _ _ hv hm => keyed_congr (hg _ _ hv) hm)
    (fun p q s hp hq ht => keyed_swap p q s hp hq ht) h m m' hm

end Keyed

theorem untyped_near {v v' : Node} (h : Near v v') {m m' : OM String Node}
    (hm : mapView unordered m = mapView unordered m') :
    seen (mapView unordered) (loadUntyped m v) = seen (mapView unordered) (loadUntyped m' v') :=
  keyed_near (g := .ok) (fun v v' h => by simp only [seen, h.un]) h hm

theorem ann_near {v v' : Node} (h : Near v v') :
    seen (mapView unordered) (loadAnn v) = seen (mapView unordered) (loadAnn v') :=
  untyped_near h rfl

theorem anns_near {v v' : Node} (h : Near v v') {m m' : OM String Ann}
    (hm : annView m = annView m') :
    seen annView (loadAnns m v) = seen annView (loadAnns m' v') :=
  keyed_near (g := loadAnn) (fun _ _ h => ann_near h) h hm

theorem strings_near {v v' : Node} (h : Near v v') {m m' : OM String String}
    (hm : mapView id m = mapView id m') :
    seen (mapView id) (loadStrings m v) = seen (mapView id) (loadStrings m' v') :=
  keyed_near (g := asString) (fun _ _ h => by rw [h.str]) h hm

/-! ### Documentation, XML settings, examples -/

theorem str_of_isStr {k : Node} (h : k.isStr = true) : k = .str k.value := by
  cases k with
  | scalar t v => simp only [Node.isStr, beq_iff_eq] at h; subst h; rfl
  | _ => cases h

theorem scalar_str {X : Xyml} (hL : Lawful X) {k : Node} (h : k.isStr = true) :
    asScalar X k = .ok (.str k.value) := by
  rw [str_of_isStr h]
  have := hL.toScalar_ofKey (.str k.value)
  rw [hL.ofKey_str] at this
  simp only [asScalar, this]
  rfl

theorem doc_near {X : Xyml} (hL : Lawful X) {v v' : Node} (h : Near v v') :
    seen docView (loadDocumentation X v) = seen docView (loadDocumentation X v') := by
  refine mapForEach_near ?_ ?_ h _ _ rfl
  · intro k v v' s s' hv hs
    simp only [docView, DocumentationV.mk.injEq] at hs
    unfold Documentation.assign
    split_ifs
    · simp only [seen, docView, hs, hv.value]
    · simp only [seen, docView, hs, hv.value]
    · refine seen_same _ fun a => ?_
      simp only [docView, DocumentationV.mk.injEq]
      exact ⟨hs.1, hs.2.1, view_put_congr _ hs.2.2 hv.un⟩
  · intro p q s hp hq ht
    have hne := ne_of_target ht
    have hk : Scalar.str p.1.value ≠ .str q.1.value := fun e => hne (Scalar.str.inj e)
    change seen _ ((Documentation.assign X p.1 p.2 s).bind fun t => Documentation.assign X q.1 q.2 t) =
      seen _ ((Documentation.assign X q.1 q.2 s).bind fun t => Documentation.assign X p.1 p.2 t)
    simp only [Documentation.assign, scalar_str hL hp, scalar_str hL hq]
    split_ifs <;> first
      | rfl
      | (exfalso; simp_all; done)
      | (simp only [Res.map, Res.bind, seen, docView]; rw [view_put_comm _ _ _ hk])

theorem xml_near {X : Xyml} (hL : Lawful X) (hX : ReadsScalars X) {v v' : Node} (h : Near v v') :
    seen xmlView (loadXML X v) = seen xmlView (loadXML X v') := by
  refine mapForEach_near ?_ ?_ h _ _ rfl
  · intro k v v' s s' hv hs
    simp only [xmlView, XMLV.mk.injEq] at hs
    unfold XML.assign
    rw [Near.bool hX hv, hv.str]
    split_ifs
    all_goals refine seen_same _ fun a => ?_
    case neg =>
      simp only [xmlView, hs, XMLV.mk.injEq, true_and]
      exact view_put_congr _ hs.2.2.2.2.2 hv.un
    all_goals simp only [xmlView, hs]
  · intro p q s hp hq ht
    have hne := ne_of_target ht
    have hk : Scalar.str p.1.value ≠ .str q.1.value := fun e => hne (Scalar.str.inj e)
    change seen _ ((XML.assign X p.1 p.2 s).bind fun t => XML.assign X q.1 q.2 t) =
      seen _ ((XML.assign X q.1 q.2 s).bind fun t => XML.assign X p.1 p.2 t)
    simp only [XML.assign, scalar_str hL hp, scalar_str hL hq]
    split_ifs <;> first
      | (exfalso; simp_all; done)
      | (simp only [Res.map, Res.bind, seen, xmlView]; rw [view_put_comm _ _ _ hk])
      | (cases asBool X p.2 <;> cases asBool X q.2 <;> rfl)
      | (cases asBool X p.2 <;> cases asString q.2 <;> rfl)
      | (cases asString p.2 <;> cases asBool X q.2 <;> rfl)
      | (cases asString p.2 <;> cases asString q.2 <;> rfl)

theorem exampleVal_near {X : Xyml} (hX : ReadsScalars X) (kd : Kind) {v v' : Node}
    (h : Near v v') : seen valView (exampleVal X kd v) = seen valView (exampleVal X kd v') := by
  cases kd <;> simp only [exampleVal, h.str, Near.bool hX h, Near.int hX h, Near.flt hX h]
  case array =>
    rcases h with rfl | h
    · rfl
    · cases h with
      | here => rfl
      | value => rfl
      | item tag pre post h =>
        simp only [seen, valView, List.map_append, List.map_cons, (Near.un (.inr h))]
  all_goals simp only [seen, valView, h.un]

theorem example_assign_near {X : Xyml} (hX : ReadsScalars X) {k v v' : Node} {s s' : Example}
    (hv : Near v v') (hs : exampleView s = exampleView s') :
    seen exampleView (s.assign X k v) = seen exampleView (s'.assign X k v') := by
  simp only [exampleView, ExampleV.mk.injEq] at hs
  have hx : seen exampleView (s.putExtra X k v) = seen exampleView (s'.putExtra X k v') := by
    refine seen_same _ fun a => ?_
    simp only [exampleView, hs, ExampleV.mk.injEq, true_and]
    exact view_put_congr _ hs.2.2.2.2.2.2 hv.un
  unfold Example.assign
  rw [Near.bool hX hv, hv.str]
  split
  · exact hx
  · split
    · rfl
    · split
      · refine seen_map _ _ (ann_near hv) fun a a' ha => ?_
        simp only [exampleView, hs, ExampleV.mk.injEq, true_and, and_true]
        exact view_put_congr _ hs.2.2.2.1 ha
      · split
        · refine seen_same _ fun a => ?_
          simp only [exampleView, hs]
        · split
          · refine seen_same _ fun a => ?_
            simp only [exampleView, hs]
          · split
            · refine seen_same _ fun a => ?_
              simp only [exampleView, hs]
            · split
              · rw [hs.1]
                refine seen_map _ _ (exampleVal_near hX s'.kind hv) fun a a' ha => ?_
                simp only [exampleView, hs, ha, Option.map_some]
              · exact hx

theorem example_assign_swap {X : Xyml} (hL : Lawful X) (p q : Node × Node)
    (s : Example) (hp : p.1.isStr = true) (hq : q.1.isStr = true)
    (ht : sameTarget p.1.value q.1.value = false) :
    seen exampleView ((s.assign X p.1 p.2).bind (Example.assign X q.1 q.2)) =
      seen exampleView ((s.assign X q.1 q.2).bind (Example.assign X p.1 p.2)) := by
  have hne := ne_of_target ht
  have hk : Scalar.str p.1.value ≠ .str q.1.value := fun e => hne (Scalar.str.inj e)
  -- what one entry does, as an update
  have key : ∀ k v : Node, k.isStr = true →
      (∀ e, (e : Example).assign X k v = .panic .emptyKey) ∨
      (∃ r : Res Ann, ∀ e : Example, e.assign X k v =
        r.map fun a => { e with annotations := e.annotations.put k.value a }) ∨
      (k.value = "displayName" ∧ ∀ e : Example, e.assign X k v =
        (asString v).map fun s => { e with displayName := some s }) ∨
      (k.value = "description" ∧ ∀ e : Example, e.assign X k v =
        (asString v).map fun s => { e with description := some s }) ∨
      (k.value = "strict" ∧ ∀ e : Example, e.assign X k v =
        (asBool X v).map fun b => { e with strict := b }) ∨
      (k.value = "value" ∧ ∀ e : Example, e.assign X k v =
        (exampleVal X e.kind v).map fun x => { e with value := some x }) ∨
      (∀ e : Example, e.assign X k v =
        .ok { e with extra := e.extra.put (.str k.value) v }) := by
    intro k v hk
    simp only [Example.assign, Example.putExtra, scalar_str hL hk, hk, Bool.not_true,
      Bool.false_eq_true, if_false]
    cases firstChar k.value with
    | none => exact .inl fun _ => rfl
    | some c =>
      simp only
      by_cases h1 : c = '('
      · exact .inr (.inl ⟨loadAnn v, fun e => by rw [if_pos h1]⟩)
      by_cases h2 : k.value = "displayName"
      · exact .inr (.inr (.inl ⟨h2, fun e => by rw [if_neg h1, if_pos h2]⟩))
      by_cases h3 : k.value = "description"
      · exact .inr (.inr (.inr (.inl ⟨h3, fun e => by rw [if_neg h1, if_neg h2, if_pos h3]⟩)))
      by_cases h4 : k.value = "strict"
      · exact .inr (.inr (.inr (.inr (.inl ⟨h4, fun e => by
          rw [if_neg h1, if_neg h2, if_neg h3, if_pos h4]⟩))))
      by_cases h5 : k.value = "value"
      · exact .inr (.inr (.inr (.inr (.inr (.inl ⟨h5, fun e => by
          rw [if_neg h1, if_neg h2, if_neg h3, if_neg h4, if_pos h5]⟩)))))
      · exact .inr (.inr (.inr (.inr (.inr (.inr fun e => by
          rw [if_neg h1, if_neg h2, if_neg h3, if_neg h4, if_neg h5]; rfl)))))
  change seen _ ((s.assign X p.1 p.2).bind fun t => t.assign X q.1 q.2) =
    seen _ ((s.assign X q.1 q.2).bind fun t => t.assign X p.1 p.2)
  rcases key p.1 p.2 hp with h1 | ⟨r, h1⟩ | ⟨n1, h1⟩ | ⟨n1, h1⟩ | ⟨n1, h1⟩ | ⟨n1, h1⟩ | h1 <;>
  rcases key q.1 q.2 hq with h2 | ⟨r', h2⟩ | ⟨n2, h2⟩ | ⟨n2, h2⟩ | ⟨n2, h2⟩ | ⟨n2, h2⟩ | h2 <;>
  simp only [h1, h2] <;> first
    | (exfalso; exact hne (n1.trans n2.symm))
    | rfl
    | (cases r <;> rfl)
    | (cases r' <;> rfl)
    | (cases asString p.2 <;> rfl)
    | (cases asString q.2 <;> rfl)
    | (cases asBool X p.2 <;> rfl)
    | (cases asBool X q.2 <;> rfl)
    | (cases exampleVal X s.kind p.2 <;> rfl)
    | (cases exampleVal X s.kind q.2 <;> rfl)
    | (cases r <;> cases r' <;> simp only [Res.map, Res.bind, seen, exampleView, annView];
       rw [view_put_comm _ _ _ hne])
    | (simp only [Res.bind, seen, exampleView]; rw [view_put_comm _ _ _ hk])
    | (cases r <;> cases asString q.2 <;> rfl)
    | (cases r <;> cases asBool X q.2 <;> rfl)
    | (cases asString p.2 <;> cases asString q.2 <;> rfl)
    | (cases asString p.2 <;> cases asBool X q.2 <;> rfl)
    | (cases asBool X p.2 <;> cases asString q.2 <;> rfl)
    | (cases asString p.2 <;> cases r' <;> rfl)
    | (cases asBool X p.2 <;> cases r' <;> rfl)
    | (cases r <;> simp only [Res.map, Res.bind] <;>
       cases exampleVal X s.kind q.2 <;> rfl)
    | (cases r' <;> simp only [Res.map, Res.bind] <;>
       cases exampleVal X s.kind p.2 <;> rfl)
    | (cases asString p.2 <;> simp only [Res.map, Res.bind] <;>
       cases exampleVal X s.kind q.2 <;> rfl)
    | (cases asString q.2 <;> simp only [Res.map, Res.bind] <;>
       cases exampleVal X s.kind p.2 <;> rfl)
    | (cases asBool X p.2 <;> simp only [Res.map, Res.bind] <;>
       cases exampleVal X s.kind q.2 <;> rfl)
    | (cases asBool X q.2 <;> simp only [Res.map, Res.bind] <;>
       cases exampleVal X s.kind p.2 <;> rfl)

end Verif.Doc.Order
