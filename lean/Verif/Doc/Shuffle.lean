import Verif.Doc.ShuffleSpec
import Verif.Doc.OrderTypes
import Verif.Doc.RoundTrip

/-! # Objects that agree up to order are written alike up to order -/

namespace Verif.Doc.Mix
open Verif Verif.Doc Verif.Doc.Spec Verif.Doc.Order

/-- A tree without the order of the entries of its mappings and ordered maps. -/
def sh (n : Node) : Quot Shuffle := Quot.mk Shuffle n

theorem shuffled_of {a b : Node} (h : sh a = sh b) : Shuffled a b := Quot.eqvGen_exact h

/-! ### Trees -/

theorem sh_value (pre : List (Node × Node)) (k : Node) (post : List (Node × Node)) {v v' : Node}
    (h : sh v = sh v') : sh (.map (pre ++ (k, v) :: post)) = sh (.map (pre ++ (k, v') :: post)) :=
  congrArg (Quot.lift (fun v => sh (.map (pre ++ (k, v) :: post)))
    fun _ _ h => Quot.sound (.value pre k post h)) h

theorem sh_item (t : String) (pre post : List Node) {v v' : Node}
    (h : sh v = sh v') : sh (.seq t (pre ++ v :: post)) = sh (.seq t (pre ++ v' :: post)) :=
  congrArg (Quot.lift (fun v => sh (.seq t (pre ++ v :: post)))
    fun _ _ h => Quot.sound (.item t pre post h)) h

theorem sh_one (k : Node) {v v' : Node} (h : sh v = sh v') :
    sh (.map [(k, v)]) = sh (.map [(k, v')]) := sh_value [] k [] h

theorem sh_map_of {α : Type} {k g g' : α → Node} : ∀ (l : List α) (pre : List (Node × Node)),
    (∀ a ∈ l, sh (g a) = sh (g' a)) →
    sh (.map (pre ++ l.map fun a => (k a, g a))) = sh (.map (pre ++ l.map fun a => (k a, g' a))) := by
  intro l
  induction l with
  | nil => intros; rfl
  | cons a l ih =>
    intro pre h
    have h1 := sh_value pre (k a) (l.map fun a => (k a, g a)) (h a (by simp))
    have h2 := ih (pre ++ [(k a, g' a)]) fun b hb => h b (by simp [hb])
    simp only [List.append_assoc, List.cons_append, List.nil_append] at h2
    exact h1.trans h2

theorem sh_seq_of {α : Type} {t : String} {g g' : α → Node} : ∀ (l : List α) (pre : List Node),
    (∀ a ∈ l, sh (g a) = sh (g' a)) →
    sh (.seq t (pre ++ l.map g)) = sh (.seq t (pre ++ l.map g')) := by
  intro l
  induction l with
  | nil => intros; rfl
  | cons a l ih =>
    intro pre h
    have h1 := sh_item t pre (l.map g) (h a (by simp))
    have h2 := ih (pre ++ [g' a]) fun b hb => h b (by simp [hb])
    simp only [List.append_assoc, List.cons_append, List.nil_append] at h2
    exact h1.trans h2

/-- Lists of items. -/
theorem sh_seq {t : String} : ∀ (as bs : List Node), as.map sh = bs.map sh →
    sh (.seq t as) = sh (.seq t bs) := by
  suffices H : ∀ (as bs pre : List Node), as.map sh = bs.map sh →
      sh (.seq t (pre ++ as)) = sh (.seq t (pre ++ bs)) from fun as bs h => H as bs [] h
  intro as
  induction as with
  | nil =>
    intro bs pre h
    cases bs with
    | nil => rfl
    | cons b bs => simp at h
  | cons a as ih =>
    intro bs pre h
    cases bs with
    | nil => simp at h
    | cons b bs =>
      simp only [List.map_cons, List.cons.injEq] at h
      have h2 := ih bs (pre ++ [b]) h.2
      simp only [List.append_assoc, List.cons_append, List.nil_append] at h2
      exact (sh_item t pre as h.1).trans h2

theorem sh_map_perm {ps qs : List (Node × Node)} (h : ps.Perm qs)
    (hd : (ps.map Prod.fst).Nodup) : ∀ pre, sh (.map (pre ++ ps)) = sh (.map (pre ++ qs)) := by
  induction h with
  | nil => exact fun _ => rfl
  | cons x h ih =>
    intro pre
    have := ih (List.nodup_cons.mp hd).2 (pre ++ [x])
    simpa using this
  | swap x y l =>
    intro pre
    refine Quot.sound (.here pre y x l fun e => ?_)
    simp [e] at hd
  | trans h1 h2 ih1 ih2 =>
    intro pre
    exact (ih1 hd pre).trans (ih2 ((h1.map Prod.fst).nodup_iff.mp hd) pre)

theorem sh_omap_perm {ps qs : List (Node × Node)} (h : ps.Perm qs)
    (hd : (ps.map Prod.fst).Nodup) : ∀ pre,
    sh (.seq omapTag (pre ++ ps.map fun p => .map [p])) =
      sh (.seq omapTag (pre ++ qs.map fun p => .map [p])) := by
  induction h with
  | nil => exact fun _ => rfl
  | cons x h ih =>
    intro pre
    have := ih (List.nodup_cons.mp hd).2 (pre ++ [.map [x]])
    simpa using this
  | swap x y l =>
    intro pre
    refine Quot.sound (.entry pre y x _ fun e => ?_)
    simp [e] at hd
  | trans h1 h2 ih1 ih2 =>
    intro pre
    exact (ih1 hd pre).trans (ih2 ((h1.map Prod.fst).nodup_iff.mp hd) pre)

/-- Every order of the input is an order of the output. -/
theorem swap_shuffle {a b : Node} (h : Swap a b) : Shuffle a b := by
  induction h with
  | here pre p q post hp hq h =>
    refine .here pre p q post fun e => ?_
    rw [e] at h
    simp [sameTarget] at h
  | value pre k post _ ih => exact .value pre k post ih
  | item tag pre post _ ih => exact .item tag pre post ih

/-- From trees without the order of mapping entries. -/
def coarse : Unordered → Quot Shuffle :=
  Quot.lift sh fun _ _ h => Quot.sound (swap_shuffle h)

theorem coarse_un (n : Node) : coarse (unordered n) = sh n := rfl

theorem sh_of_un {a b : Node} (h : unordered a = unordered b) : sh a = sh b :=
  congrArg coarse h

theorem sh_opt {o o' : Option Node} (h : o.map unordered = o'.map unordered) :
    o.map sh = o'.map sh := by
  have := congrArg (Option.map coarse) h
  simp only [Option.map_map] at this
  exact this

/-! ### Maps -/

section Maps
variable {K V W : Type} [DecidableEq K]

theorem get_mem {m : OM K V} (h : Distinct m.ents) {e : K × V} (he : e ∈ m.ents) :
    m.get e.1 = some e.2 := by
  obtain ⟨es, b⟩ := m
  simp only [OM.get] at *
  induction es with
  | nil => cases he
  | cons x es ih =>
    unfold Distinct at h ih
    simp only [List.map_cons, List.nodup_cons] at h
    rw [List.find?_cons]
    rcases List.mem_cons.mp he with rfl | he
    · simp
    · have : (x.1 == e.1) = false := by
        rw [beq_eq_false_iff_ne]
        intro e'
        exact h.1 (e' ▸ List.mem_map_of_mem he)
      rw [this]
      exact ih h.2 he

theorem get_mem' {m : OM K V} {k : K} {v : V} (h : m.get k = some v) : (k, v) ∈ m.ents := by
  simp only [OM.get, Option.map_eq_some_iff] at h
  obtain ⟨e, h1, rfl⟩ := h
  have h2 := List.find?_some h1
  have h3 := List.mem_of_find?_eq_some h1
  simp only [beq_iff_eq] at h2
  exact h2 ▸ h3

theorem mem_keys_get {m : OM K V} (k : K) : k ∈ m.ents.map Prod.fst ↔ (m.get k).isSome = true := by
  simp only [OM.get, Option.isSome_map, List.find?_isSome, List.mem_map, beq_iff_eq]

variable {f : V → W} {m m' : OM K V}

theorem view_get (h : mapView f m = mapView f m') (k : K) :
    (m.get k).map f = (m'.get k).map f := by
  simp only [mapView, MapV.mk.injEq] at h
  exact congrFun h.2 k

theorem view_omap (h : mapView f m = mapView f m') : m.omap = m'.omap := by
  simp only [mapView, MapV.mk.injEq] at h
  exact h.1

theorem view_perm (h : mapView f m = mapView f m') (h1 : Distinct m.ents) (h2 : Distinct m'.ents) :
    (m.ents.map Prod.fst).Perm (m'.ents.map Prod.fst) := by
  refine (List.perm_ext_iff_of_nodup h1 h2).mpr fun k => ?_
  rw [mem_keys_get, mem_keys_get]
  have := congrArg Option.isSome (view_get h k)
  simpa using this

theorem view_len (h : mapView f m = mapView f m') (h1 : Distinct m.ents) (h2 : Distinct m'.ents) :
    m.len = m'.len := by
  have := (view_perm h h1 h2).length_eq
  simpa [OM.len] using this

theorem ents_by_key {kn : K → Node} {vn : V → Node} (h : Distinct m.ents) :
    (m.ents.map fun e => (kn e.1, vn e.2)) =
      (m.ents.map Prod.fst).map fun k => (kn k, ((m.get k).map vn).getD nullNode) := by
  rw [List.map_map]
  refine List.map_congr_left fun e he => ?_
  simp only [Function.comp_apply, get_mem h he, Option.map_some, Option.getD_some]

/-- Maps that agree up to order are rendered alike up to order. -/
theorem sh_render {kn : K → Node} (hk : ∀ {a b}, kn a = kn b → a = b) {vn vn' : V → Node}
    (h : mapView f m = mapView f m') (h1 : Distinct m.ents) (h2 : Distinct m'.ents)
    (hv : ∀ e ∈ m.ents, ∀ e' ∈ m'.ents, f e.2 = f e'.2 → sh (vn e.2) = sh (vn' e'.2)) :
    sh (renderPairs m.omap (m.ents.map fun e => (kn e.1, vn e.2))) =
      sh (renderPairs m'.omap (m'.ents.map fun e => (kn e.1, vn' e.2))) := by
  rw [ents_by_key h1, ents_by_key h2, ← view_omap h]
  have hp := view_perm h h1 h2
  have hval : ∀ k ∈ m.ents.map Prod.fst, sh (((m.get k).map vn).getD nullNode) =
      sh (((m'.get k).map vn').getD nullNode) := by
    intro k _
    have hg := view_get h k
    cases e1 : m.get k with
    | none =>
      rw [e1] at hg
      cases e2 : m'.get k with
      | none => rfl
      | some w => rw [e2] at hg; cases hg
    | some v =>
      rw [e1] at hg
      cases e2 : m'.get k with
      | none => rw [e2] at hg; cases hg
      | some w =>
        rw [e2] at hg
        exact hv _ (get_mem' e1) _ (get_mem' e2) (Option.some.inj hg)
  have hp2 := hp.map fun k => (kn k, ((m'.get k).map vn').getD nullNode)
  have hn : (((m.ents.map Prod.fst).map fun k => (kn k, ((m'.get k).map vn').getD nullNode)).map
      Prod.fst).Nodup := by
    rw [List.map_map]
    exact List.Pairwise.map _ (fun a b ne e => ne (hk e)) h1
  unfold renderPairs
  cases m.omap with
  | false =>
    simp only [Bool.false_eq_true, if_false]
    exact (sh_map_of _ [] hval).trans (sh_map_perm hp2 hn [])
  | true =>
    simp only [if_true]
    refine Eq.trans ?_ (sh_omap_perm hp2 hn [])
    have h3 := sh_seq_of (t := omapTag) (m.ents.map Prod.fst) [] fun k hk' => sh_one (kn k) (hval k hk')
    simp only [List.map_map, List.nil_append] at h3 ⊢
    exact h3

theorem ov_opt {m m' : OM K Node} (k : K) {o o' : Option Node} (h : mapView sh m = mapView sh m')
    (ho : o.map sh = o'.map sh) : mapView sh (m.putOpt k o) = mapView sh (m'.putOpt k o') := by
  cases o <;> cases o'
  · exact h
  · cases ho
  · cases ho
  · exact view_put_congr k h (Option.some.inj ho)

theorem get_putAll (es : List (K × V)) (m : OM K V) (k : K) (h : Distinct es) :
    (m.putAll es).get k = ((OM.mk es false).get k).or (m.get k) := by
  induction es generalizing m with
  | nil => rfl
  | cons e es ih =>
    unfold Distinct at h
    simp only [List.map_cons, List.nodup_cons] at h
    rw [OM.putAll_cons, ih _ h.2, OM.get_put]
    by_cases hk : e.1 = k
    · subst hk
      have : (OM.mk es false).get e.1 = none := by
        cases hg : (OM.mk es false).get e.1 with
        | none => rfl
        | some v => exact absurd (List.mem_map_of_mem (f := Prod.fst) (get_mem' hg)) h.1
      have h4 : (OM.mk (e :: es) false).get e.1 = some e.2 := by simp [OM.get]
      rw [this, h4, if_pos rfl]
      rfl
    · have : (OM.mk (e :: es) false).get k = (OM.mk es false).get k := by
        simp [OM.get, hk]
      rw [if_neg hk, this]

theorem ov_all {m m' : OM K V} {es es' : List (K × V)} (h : mapView f m = mapView f m')
    (h1 : Distinct es) (h2 : Distinct es')
    (he : ∀ k, ((OM.mk es false).get k).map f = ((OM.mk es' false).get k).map f) :
    mapView f (m.putAll es) = mapView f (m'.putAll es') := by
  have e1 := view_get h
  have e2 := view_omap h
  simp only [mapView, MapV.mk.injEq, OM.omap_putAll]
  refine ⟨e2, funext fun k => ?_⟩
  rw [get_putAll es m k h1, get_putAll es' m' k h2]
  have a := he k
  have b := e1 k
  cases ea : (OM.mk es false).get k <;> cases eb : (OM.mk es' false).get k <;>
    simp_all

end Maps

/-! ### Maps on the way to being written -/

/-- Two maps without a key twice that agree up to order. -/
structure Out (m m' : OM Scalar Node) : Prop where
  view : mapView sh m = mapView sh m'
  left : Distinct m.ents
  right : Distinct m'.ents

theorem Out.empty (b : Bool) : Out (OM.empty b) (OM.empty b) :=
  ⟨rfl, List.nodup_nil, List.nodup_nil⟩

theorem Out.put {m m' : OM Scalar Node} (h : Out m m') (k : Scalar) {n n' : Node}
    (hn : sh n = sh n') : Out (m.put k n) (m'.put k n') :=
  ⟨view_put_congr k h.view hn, OM.nodup_put k n h.left, OM.nodup_put k n' h.right⟩

theorem Out.opt {m m' : OM Scalar Node} (h : Out m m') (k : Scalar) {o o' : Option Node}
    (ho : o.map sh = o'.map sh) : Out (m.putOpt k o) (m'.putOpt k o') :=
  ⟨ov_opt k h.view ho, OM.nodup_putOpt k o h.left, OM.nodup_putOpt k o' h.right⟩

theorem Out.all {m m' : OM Scalar Node} (h : Out m m') {es es' : List (Scalar × Node)}
    (h1 : Distinct es) (h2 : Distinct es')
    (he : ∀ k, ((OM.mk es false).get k).map sh = ((OM.mk es' false).get k).map sh) :
    Out (m.putAll es) (m'.putAll es') :=
  ⟨ov_all h.view h1 h2 he, OM.nodup_putAll es h.left, OM.nodup_putAll es' h.right⟩

/-- Extra facets. -/
theorem Out.extra {m m' : OM Scalar Node} (h : Out m m') {x x' : OM Scalar Node}
    (hx : mapView unordered x = mapView unordered x') (h1 : Distinct x.ents)
    (h2 : Distinct x'.ents) : Out (m.putAll x.ents) (m'.putAll x'.ents) :=
  h.all h1 h2 fun k => sh_opt (view_get hx k)

theorem get_str_ents {V : Type} (vn : V → Node) (m : OM String V) (k : Scalar) :
    (OM.mk (m.ents.map fun e => (Scalar.str e.1, vn e.2)) false).get k =
      match k with
      | .str s => (m.get s).map vn
      | _ => none := by
  obtain ⟨es, b⟩ := m
  simp only [OM.get]
  induction es with
  | nil => cases k <;> rfl
  | cons e es ih =>
    simp only [List.map_cons, List.find?_cons]
    cases k with
    | str s =>
      have : (Scalar.str e.1 == Scalar.str s) = (e.1 == s) := by
        rw [Bool.eq_iff_iff, beq_iff_eq, beq_iff_eq]; simp
      simp only [this]
      cases e.1 == s with
      | true => rfl
      | false => exact ih
    | int i =>
      have : (Scalar.str e.1 == Scalar.int i) = false := by rw [beq_eq_false_iff_ne]; simp
      simp only [this]; exact ih
    | bool i =>
      have : (Scalar.str e.1 == Scalar.bool i) = false := by rw [beq_eq_false_iff_ne]; simp
      simp only [this]; exact ih
    | flt i =>
      have : (Scalar.str e.1 == Scalar.flt i) = false := by rw [beq_eq_false_iff_ne]; simp
      simp only [this]; exact ih
    | null =>
      have : (Scalar.str e.1 == Scalar.null) = false := by rw [beq_eq_false_iff_ne]; simp
      simp only [this]; exact ih

theorem Out.strs {m m' : OM Scalar Node} (h : Out m m') {V W : Type} {f : V → W} {vn : V → Node}
    {x x' : OM String V} (hx : mapView f x = mapView f x') (h1 : Distinct x.ents)
    (h2 : Distinct x'.ents)
    (hv : ∀ e ∈ x.ents, ∀ e' ∈ x'.ents, f e.2 = f e'.2 → sh (vn e.2) = sh (vn e'.2)) :
    Out (m.putAll (x.ents.map fun e => (Scalar.str e.1, vn e.2)))
      (m'.putAll (x'.ents.map fun e => (Scalar.str e.1, vn e.2))) := by
  have d : ∀ y : OM String V, Distinct y.ents →
      Distinct (y.ents.map fun e => (Scalar.str e.1, vn e.2)) := by
    intro y hy
    have := nodup_map_str hy
    simpa [Distinct, List.map_map, Function.comp_def] using this
  refine h.all (d x h1) (d x' h2) fun k => ?_
  rw [get_str_ents, get_str_ents]
  cases k with
  | str s =>
    have hg := view_get hx s
    simp only
    cases e1 : x.get s <;> cases e2 : x'.get s <;> rw [e1, e2] at hg
    · cases hg
    · cases hg
    · exact congrArg some (hv _ (get_mem' e1) _ (get_mem' e2) (Option.some.inj hg))
  | _ => rfl

theorem str_inj {a b : String} (h : Node.str a = Node.str b) : a = b := by
  simpa [Node.str] using h

/-- String-keyed maps. -/
theorem sh_strMap {V W : Type} {f : V → W} {vn : V → Node} {x x' : OM String V}
    (hx : mapView f x = mapView f x') (h1 : Distinct x.ents) (h2 : Distinct x'.ents)
    (hv : ∀ e ∈ x.ents, ∀ e' ∈ x'.ents, f e.2 = f e'.2 → sh (vn e.2) = sh (vn e'.2)) :
    sh (renderStrMap vn x) = sh (renderStrMap vn x') :=
  sh_render (kn := Node.str) str_inj hx h1 h2 hv

theorem sh_untyped {x x' : OM String Node} (hx : mapView unordered x = mapView unordered x')
    (h1 : Distinct x.ents) (h2 : Distinct x'.ents) :
    sh (renderStrMap id x) = sh (renderStrMap id x') :=
  sh_strMap hx h1 h2 fun _ _ _ _ e => sh_of_un e

theorem Out.anns {m m' : OM Scalar Node} (h : Out m m') {x x' : OM String Ann}
    (hx : annView x = annView x') (h1 : AnnsOnce x) (h2 : AnnsOnce x') :
    Out (m.putAll (annEnts x)) (m'.putAll (annEnts x')) :=
  h.strs (vn := renderStrMap id) hx h1.1 h2.1 fun e he e' he' hv =>
    sh_untyped hv (h1.2 e he) (h2.2 e' he')

theorem ofKey_inj {X : Xyml} (hX : Lawful X) {a b : Scalar} (h : X.ofKey a = X.ofKey b) :
    a = b := by
  have h1 := hX.toScalar_ofKey a
  rw [h, hX.toScalar_ofKey b] at h1
  exact (Option.some.inj h1).symm

theorem Out.render {X : Xyml} (hX : Lawful X) {m m' : OM Scalar Node} (h : Out m m') :
    sh (renderAny X m) = sh (renderAny X m') :=
  sh_render (kn := X.ofKey) (vn := id) (vn' := id) (ofKey_inj hX) h.view h.left h.right
    fun _ _ _ _ e => e

theorem Out.finish {X : Xyml} (hX : Lawful X) {m m' : OM Scalar Node} (h : Out m m') :
    sh (finish X m) = sh (finish X m') := by
  have hg := view_get h.view (.str "type")
  have hl := view_len h.view h.left h.right
  have hh : ∀ y : OM Scalar Node, y.has (.str "type") = (y.get (.str "type")).isSome := by
    intro y
    rw [Bool.eq_iff_iff, ← mem_keys_get]
    simp [OM.has]
  have hh2 : m.has (.str "type") = m'.has (.str "type") := by
    rw [hh, hh]
    have := congrArg Option.isSome hg
    simpa using this
  unfold Doc.finish
  rw [hl, hh2]
  split
  · cases e1 : m.get (.str "type") <;> cases e2 : m'.get (.str "type") <;> rw [e1, e2] at hg
    · cases hg
    · cases hg
    · exact Option.some.inj hg
  · exact h.render hX

/-! ### Examples -/

theorem sh_val {X : Xyml} {v v' : Val} (h : valView v = valView v') :
    sh (v.render X) = sh (v'.render X) := by
  cases v <;> cases v' <;> simp only [valView, ValV.node.injEq, ValV.list.injEq, ValV.plain.injEq,
    reduceCtorEq] at h
  · exact sh_of_un h
  · refine sh_seq _ _ ?_
    have := congrArg (List.map coarse) h
    simpa [List.map_map, Function.comp_def, coarse_un] using this
  all_goals rw [h]

theorem sh_mapped {α β : Type} {f : α → β} {g : α → Node} {o o' : Option α}
    (h : o.map f = o'.map f)
    (hg : ∀ a, o = some a → ∀ b, o' = some b → f a = f b → sh (g a) = sh (g b)) :
    (o.map g).map sh = (o'.map g).map sh := by
  cases o <;> cases o'
  · rfl
  · cases h
  · cases h
  · exact congrArg some (hg _ rfl _ rfl (Option.some.inj h))

theorem sh_example {X : Xyml} (hX : Lawful X) {e e' : Example}
    (h : exampleView e = exampleView e') (h1 : ExampleOnce e) (h2 : ExampleOnce e') :
    sh (e.toYAML X) = sh (e'.toYAML X) := by
  simp only [exampleView, ExampleV.mk.injEq] at h
  obtain ⟨hk, hn, hd, ha, hv, hs, hx⟩ := h
  have hval : (e.value.map (Val.render X)).map sh = (e'.value.map (Val.render X)).map sh :=
    sh_mapped hv fun _ _ _ _ h => sh_val h
  have hexp : e.expand = e'.expand := by
    simp only [Example.expand, hn, hd, hs, view_len ha h1.1.1 h2.1.1, view_len hx h1.2 h2.2]
  unfold Example.toYAML Example.marshal
  rw [← hexp, ← hn, ← hd, ← hs]
  split
  · have h0 := (((Out.empty false).opt (.str "displayName") (o := e.displayName.map .str) rfl).opt
      (.str "description") (o := e.description.map .str) rfl).opt (.str "value") hval
    refine Out.render hX (Out.extra (Out.anns ?_ ha h1.1 h2.1) hx h1.2 h2.2)
    split
    · exact h0
    · exact h0.put _ rfl
  · refine Out.render hX ((Out.empty false).put _ ?_)
    cases e3 : e.value.map (Val.render X) <;> cases e4 : e'.value.map (Val.render X) <;>
      rw [e3, e4] at hval
    · cases hval
    · cases hval
    · exact Option.some.inj hval

/-! ### Types -/

theorem Out.body {X : Xyml} {m m' : OM Scalar Node} (h : Out m m') {b b' : Body}
    (hb : bodyView b = bodyView b') {p p' i i' : Option Node} (hp : p.map sh = p'.map sh)
    (hi : i.map sh = i'.map sh) : Out (b.marshal X p i m) (b'.marshal X p' i' m') := by
  rcases body_cases hb with ⟨rfl, ho⟩ | ⟨f, f', rfl, rfl⟩
  · cases b with
    | object f => cases ho
    | string f => exact ((h.opt _ rfl).opt _ rfl).opt _ rfl
    | file f => exact ((h.opt _ rfl).opt _ rfl).opt _ rfl
    | array f => exact (((h.opt _ rfl).opt _ rfl).opt _ rfl).opt _ hi
    | datetime f => exact h.opt _ rfl
    | number f => exact (((h.opt _ rfl).opt _ rfl).opt _ rfl).opt _ rfl
    | integer f => exact (((h.opt _ rfl).opt _ rfl).opt _ rfl).opt _ rfl
    | _ => exact h
  · simp only [bodyView, BodyV.object.injEq] at hb
    obtain ⟨h1, h2, h3, h4, h5⟩ := hb
    simp only [Body.marshal, h1, h2, h3, h4]
    exact (((((h.opt _ rfl).opt _ rfl).opt _ rfl).opt _ rfl).opt _ (sh_opt h5)).opt _ hp

theorem Out.hdr {X : Xyml} {m m' : OM Scalar Node} (h : Out m m') {x x' : Hdr}
    (hx : hdrView x = hdrView x') (h1 : HdrOnce x) (h2 : HdrOnce x') {f f' : Option Node}
    (hf : f.map sh = f'.map sh) : Out (x.marshalExt X f m) (x'.marshalExt X f' m') := by
  simp only [hdrView, HdrV.mk.injEq] at hx
  obtain ⟨e1, e2, e3, e4, e5, e6, e7, _⟩ := hx
  unfold Hdr.marshalExt marshalBase
  rw [← e1, ← e3, ← e4, ← e7]
  have h0 := (((h.opt (.str "displayName") (o := x.displayName.map .str) rfl).opt
    (.str "description") (o := x.description.map .str) rfl).put (.str "type")
    (n := .str x.schema) rfl).extra e2 h1.extra h2.extra
  refine Out.opt (Out.opt (Out.anns ?_ e5 h1.annotations h2.annotations) _ hf) _ ?_
  · split
    · exact h0
    · exact h0.put _ rfl
  · exact sh_mapped e6 fun _ _ _ _ _ => rfl

theorem Out.type {X : Xyml} (hX : Lawful X) {x x' : Hdr} {b b' : Body}
    (hx : hdrView x = hdrView x') (hb : bodyView b = bodyView b') (h1 : HdrOnce x)
    (h2 : HdrOnce x') {f f' p p' i i' : Option Node} (hf : f.map sh = f'.map sh)
    (hp : p.map sh = p'.map sh) (hi : i.map sh = i'.map sh) :
    Out (marshalDT X x b f p i) (marshalDT X x' b' f' p' i') := by
  have hx' := hx
  simp only [hdrView, HdrV.mk.injEq] at hx'
  obtain ⟨_, _, _, _, _, _, _, e1, e2, e3, e4⟩ := hx'
  unfold marshalDT
  have h0 := (Out.empty false).opt (.str "default") (sh_opt e1)
  refine Out.opt (Out.opt (Out.opt (Out.body (Out.hdr h0 hx h1 h2 hf) hb hp hi) _ ?_) _ ?_) _ ?_
  · have hl : ∀ l l' : List Val, l.map valView = l'.map valView →
        sh (renderList (Val.render X) l) = sh (renderList (Val.render X) l') := by
      intro l l' h
      refine sh_seq _ _ ?_
      induction l generalizing l' with
      | nil => cases l' <;> simp_all
      | cons v l ih =>
        cases l' with
        | nil => simp at h
        | cons v' l' =>
          simp only [List.map_cons, List.cons.injEq] at h ⊢
          exact ⟨sh_val h.1, ih l' h.2⟩
    exact sh_mapped e2 fun _ _ _ _ h => hl _ _ h
  · exact sh_mapped e3 fun a ha b hb h => sh_example hX h (h1.example a ha) (h2.example b hb)
  · rw [view_len e4 h1.examples h2.examples]
    split
    · exact congrArg some (sh_strMap e4 h1.examples h2.examples fun e he e' he' h =>
        sh_example hX h (h1.examplesEach e he) (h2.examplesEach e' he'))
    · rfl

theorem sh_types {X : Xyml} {x x' : OM String DT} (hx : mapView typeView x = mapView typeView x')
    (h1 : Distinct x.ents) (h2 : Distinct x'.ents)
    (hv : ∀ e ∈ x.ents, ∀ e' ∈ x'.ents, typeView e.2 = typeView e'.2 →
      sh (e.2.toYAML X) = sh (e'.2.toYAML X)) :
    sh (typeMapNode X x) = sh (typeMapNode X x') := by
  have h := sh_strMap (vn := fun t : DT => t.toYAML X) hx h1 h2 hv
  obtain ⟨es, b⟩ := x
  obtain ⟨es', b'⟩ := x'
  rw [typeMapNode, typeMapNode, typeEnts_eq, typeEnts_eq]
  exact h

theorem sh_type {X : Xyml} (hX : Lawful X) {t : DT} (h : TypeOnce t) : ∀ {t' : DT}, TypeOnce t' →
    typeView t = typeView t' → sh (t.toYAML X) = sh (t'.toYAML X) := by
  induction h with
  | @basic i s x h1 =>
    intro t' h' hv
    cases h' with
    | @basic i' s' x' h2 =>
      simp only [typeView, DTV.basic.injEq] at hv
      obtain ⟨rfl, rfl, hx⟩ := hv
      simp only [DT.toYAML]
      exact Out.finish hX (((Out.empty false).put _ rfl).extra hx h1 h2)
    | ext => rw [typeView_ext] at hv; simp only [typeView] at hv; cases hv
  | @ext x b fs ps it h1 f1 f2 f3 p1 p2 i1 ihf ihp ihi =>
    intro t' h' hv
    cases h' with
    | basic => rw [typeView_ext] at hv; simp only [typeView] at hv; cases hv
    | @ext x' b' fs' ps' it' h1' f1' f2' f3' p1' p2' i1' =>
      rw [typeView_ext, typeView_ext] at hv
      simp only [DTV.ext.injEq] at hv
      obtain ⟨hh, hb, hf, hp, hi⟩ := hv
      rw [DT.toYAML, DT.toYAML]
      refine Out.finish hX (Out.type hX hh hb h1 h1' ?_ ?_ ?_)
      · have hl := view_len hf f1 f1'
        have hs := sh_strMap (vn := typeMapNode X) hf f1 f1' fun e he e' he' h =>
          sh_types h (f2 e he) (f2' e' he') fun d hd d' hd' h =>
            ihf e he d hd (f3' e' he' d' hd') h
        obtain ⟨es, o⟩ := fs
        obtain ⟨es', o'⟩ := fs'
        simp only [OM.len] at hl
        rw [facetsNode, facetsNode, facetEnts_eq, facetEnts_eq, hl]
        split
        · exact congrArg some hs
        · rfl
      · have hl := view_len hp p1 p1'
        have hs := sh_types (X := X) hp p1 p1' fun e he e' he' h => ihp e he (p2' e' he') h
        obtain ⟨es, o⟩ := ps
        obtain ⟨es', o'⟩ := ps'
        simp only [OM.len] at hl
        rw [propsNode, propsNode, hl]
        split
        · exact congrArg some hs
        · rfl
      · cases it <;> cases it'
        · rfl
        · cases hi
        · cases hi
        · simp only [itemsNode, Option.map_some]
          exact congrArg some (ihi _ rfl (i1' _ rfl) (Option.some.inj hi))

/-! ### Documents -/

theorem sh_part {V W : Type} {f : V → W} {x x' : OM String V} (hx : mapView f x = mapView f x')
    (h1 : Distinct x.ents) (h2 : Distinct x'.ents) {n n' : Node} (hn : sh n = sh n') :
    (ifNonEmpty x n).map sh = (ifNonEmpty x' n').map sh := by
  unfold ifNonEmpty
  rw [view_len hx h1 h2]
  split
  · exact congrArg some hn
  · rfl

theorem sh_part_untyped {x x' : OM String Node} (hx : mapView unordered x = mapView unordered x')
    (h1 : Distinct x.ents) (h2 : Distinct x'.ents) :
    (ifNonEmpty x (renderStrMap id x)).map sh = (ifNonEmpty x' (renderStrMap id x')).map sh :=
  sh_part hx h1 h2 (sh_untyped hx h1 h2)

theorem sh_part_uses {x x' : OM String String} (hx : mapView id x = mapView id x')
    (h1 : Distinct x.ents) (h2 : Distinct x'.ents) :
    (ifNonEmpty x (renderStrMap .str x)).map sh = (ifNonEmpty x' (renderStrMap .str x')).map sh :=
  sh_part hx h1 h2 (sh_strMap hx h1 h2 fun _ _ _ _ e =>
    congrArg (fun s => sh (Node.str s)) e)

theorem sh_part_types {X : Xyml} (hX : Lawful X) {x x' : OM String DT}
    (hx : mapView typeView x = mapView typeView x') (h1 : Distinct x.ents) (h2 : Distinct x'.ents)
    (h3 : ∀ e ∈ x.ents, TypeOnce e.2) (h4 : ∀ e ∈ x'.ents, TypeOnce e.2) :
    (ifNonEmpty x (typeMapNode X x)).map sh = (ifNonEmpty x' (typeMapNode X x')).map sh :=
  sh_part hx h1 h2 (sh_types hx h1 h2 fun e he e' he' h => sh_type hX (h3 e he) (h4 e' he') h)

theorem sh_api {X : Xyml} (hX : Lawful X) {a a' : APISpec} (h : apiView a = apiView a')
    (h1 : ApiOnce a) (h2 : ApiOnce a') : sh (a.toYAML X) = sh (a'.toYAML X) := by
  simp only [apiView, APISpecV.mk.injEq] at h
  obtain ⟨e1, e2, e3, e4, e5, e6, e7, e8, e9, e10, e11, e12, e13, e14, e15, e16, e17, e18⟩ := h
  have hd : (a.documentation.map (renderList Documentation.toYAML)).map sh =
      (a'.documentation.map (renderList Documentation.toYAML)).map sh := by
    refine sh_mapped e8 fun l _ l' _ h => ?_
    have hl := congrArg List.length h
    simp only [List.length_map] at hl
    have : ∀ m : List Documentation, m.map Documentation.toYAML = List.replicate m.length (.map []) := by
      intro m
      induction m with
      | nil => rfl
      | cons d m ih => simp [Documentation.toYAML, List.replicate_succ, ih]
    simp only [renderList, this, hl]
  unfold APISpec.toYAML APISpec.marshal
  rw [← e1, ← e2, ← e3, ← e4, ← e6, ← e7, ← e15]
  refine Out.render hX (Out.opt (Out.strs (vn := id) (Out.extra (Out.anns (Out.opt (Out.opt (Out.opt (Out.opt
    (Out.opt (Out.opt (Out.opt (Out.opt (Out.opt (Out.opt (Out.opt (Out.opt (Out.opt (Out.put
    (Out.empty false) _ rfl) _ rfl) _ rfl) _ rfl) _ rfl) _ rfl) _ hd) _ rfl)
    _ (sh_part_uses e16 h1.uses h2.uses))
    _ (sh_part_untyped e14 h1.securitySchemes h2.securitySchemes))
    _ (sh_part_untyped e5 h1.baseURIParameters h2.baseURIParameters))
    _ (sh_part_untyped e10 h1.traits h2.traits))
    _ (sh_part_untyped e12 h1.annotationTypes h2.annotationTypes))
    _ (sh_part_untyped e11 h1.resourceTypes h2.resourceTypes))
    e13 h1.annotations h2.annotations) e18 h1.extra h2.extra)
    e17 h1.resources h2.resources fun _ _ _ _ e => sh_of_un e)
    _ (sh_part_types hX e9 h1.types h2.types h1.typesEach h2.typesEach))

theorem sh_lib {X : Xyml} (hX : Lawful X) {a a' : Library} (h : libView a = libView a')
    (h1 : LibOnce a) (h2 : LibOnce a') : sh (a.toYAML X) = sh (a'.toYAML X) := by
  simp only [libView, LibraryV.mk.injEq] at h
  obtain ⟨e1, e2, e3, e4, e5, e6, e7, e8, e9⟩ := h
  unfold Library.toYAML Library.marshal
  rw [← e9]
  exact Out.render hX (Out.opt (Out.extra (Out.opt (Out.anns (Out.opt (Out.opt (Out.opt (Out.opt
    (Out.opt (Out.empty false) _ rfl) _ (sh_part_uses e4 h1.uses h2.uses))
    _ (sh_part_untyped e6 h1.securitySchemes h2.securitySchemes))
    _ (sh_part_untyped e7 h1.traits h2.traits))
    _ (sh_part_untyped e2 h1.annotationTypes h2.annotationTypes))
    e1 h1.annotations h2.annotations)
    _ (sh_part_untyped e5 h1.resourceTypes h2.resourceTypes)) e3 h1.extra h2.extra)
    _ (sh_part_types hX e8 h1.types h2.types h1.typesEach h2.typesEach))

end Verif.Doc.Mix
