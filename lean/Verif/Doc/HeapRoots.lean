import Verif.Doc.HeapTypeWalk

/-! # Lemmas: programs on data types and documents at any depth -/

namespace Verif.Doc
open Relation

section walk
variable {X : Xyml} {a : Addr} {H : Heap} {t : DT}

theorem tm_nodup {m : Addr} (ht : H.Tree (.tm m)) : ((H.tm m).ents.map Prod.snd).Nodup := by
  have := ht.nodup _ .refl
  simp only [Heap.refs] at this
  refine List.Nodup.of_map Obj.ty ?_
  rw [List.map_map]
  exact this

theorem tm_entry {m c : Addr} {k : String} (hc : (H.tm m).get k = some c) :
    H.Points (.tm m) (.ty c) := by
  obtain ⟨e, he, rfl⟩ := get_mem hc
  exact List.mem_map.mpr ⟨e, he, rfl⟩

/-- A change below one of the data types in a map. -/
theorem typeMap_at {H' : Heap} (hw : H.Closed) {m c : Addr} (ht : H.Tree (.tm m)) (hm : m < H.next)
    {k : String} (hc : (H.tm m).get k = some c) {T : List Obj} (hq : Only T H H')
    (hT : ∀ x ∈ T, H.Reaches (.ty c) x) {g : DT → DT} {n : Nat}
    (hv : ∀ u, H.val n c = some u → H'.val n c = some (g u)) {y : OM String DT}
    (hy : H.typeMap n m = some y) : H'.typeMap n m = some (y.change k g) := by
  have hp := tm_entry hc
  have htm : H.tm m = H'.tm m := ht.above hq hm hp hT
  obtain ⟨u, hu⟩ := get_value hy hc
  have := change_get (r' := H'.val n) hy hc (tm_nodup ht) (g := g) hu (hv u hu)
    fun e he hne => (sameFrom_val n (ht.beside hw hq hp hT (y := .ty e.2)
      (List.mem_map.mpr ⟨e, he, rfl⟩) (fun q => hne (Obj.ty.inj q)))).symm
  unfold Heap.typeMap
  rw [← htm]
  exact this

theorem hop_property {k : String} {c : Addr} (h : H.hop a (.property k) = some c) :
    ∃ m, H.get a .properties = some (.tm m) ∧ (H.tm m).get k = some c := by
  simp only [Heap.hop] at h
  split at h
  · rename_i m hg; exact ⟨m, hg, h⟩
  · cases h

theorem hop_items {c : Addr} (h : H.hop a .items = some c) : H.get a .items = some (.ty c) := by
  simp only [Heap.hop] at h
  split at h
  · rename_i m hg; cases h; exact hg
  · cases h

theorem hop_facet {k k' : String} {c : Addr} (h : H.hop a (.facet k k') = some c) :
    ∃ m u, H.get a .facets = some (.fm m) ∧ (H.fm m).get k = some u ∧ (H.tm u).get k' = some c := by
  simp only [Heap.hop] at h
  split at h
  · rename_i m hg
    split at h
    · rename_i u hu; exact ⟨m, u, hg, hu, h⟩
    · cases h
  · cases h

theorem hop_reaches {hp : Hop} {c : Addr} (h : H.hop a hp = some c) :
    H.Reaches (.ty a) (.ty c) := by
  cases hp with
  | property k =>
    obtain ⟨m, hg, hc⟩ := hop_property h
    exact .head (get_points hg) (.single (tm_entry hc))
  | items => exact .single (get_points (hop_items h))
  | facet k k' =>
    obtain ⟨m, u, hg, hu, hc⟩ := hop_facet h
    exact .head (get_points hg) (.head (facetMap_entry hu) (.single (tm_entry hc)))

theorem TreeSim.below (h : TreeSim X a H t) {c : Addr} (hr : H.Reaches (.ty a) (.ty c)) {n : Nat}
    {u : DT} (hu : H.val n c = some u) : TreeSim X c H u :=
  ⟨h.reach, closed_reaches h.closed hr h.lt, h.tree.sub hr, n, hu⟩

/-- The data type that the getters lead to has a value. -/
theorem hop_val (h : TreeSim X a H t) {hp : Hop} {c : Addr} (hc : H.hop a hp = some c) :
    ∃ n u, H.val n c = some u := by
  obtain ⟨n, hn⟩ := h.val
  cases hp with
  | property k =>
    obtain ⟨m, hg, hc⟩ := hop_property hc
    obtain ⟨_, _, _, _, _, _, hps⟩ := get_properties hn hg
    exact ⟨n, get_value hps hc⟩
  | items =>
    obtain ⟨_, _, _, _, u, _, hu⟩ := get_items hn (hop_items hc)
    exact ⟨n, u, hu⟩
  | facet k k' =>
    obtain ⟨m, u, hg, hu, hc⟩ := hop_facet hc
    obtain ⟨_, _, _, _, _, _, hfs⟩ := get_facets hn hg
    obtain ⟨y, hy⟩ := get_value hfs hu
    exact ⟨n, get_value hy hc⟩

/-- A change below a data type in a data type. -/
theorem hop_change {H' : Heap} (h : TreeSim X a H t) {hp : Hop} {c : Addr}
    (hc : H.hop a hp = some c) {g : DT → DT} {T : List Obj} (hq : Only T H H')
    (hT : ∀ x ∈ T, H.Reaches (.ty c) x)
    (hs : ∀ u, TreeSim X c H u → ∃ n, H'.val n c = some (g u)) :
    ∃ n, H'.val n a = some (t.through g hp) := by
  obtain ⟨n1, u, hu⟩ := hop_val h hc
  obtain ⟨n2, hu'⟩ := hs u (h.below (hop_reaches hc) hu)
  have hv : ∀ n, n2 ≤ n → ∀ w, H.val n c = some w → (H').val n c = some (g w) :=
    fun n hle w hw => by rw [← val_unique hu hw]; exact val_mono hle hu'
  obtain ⟨n3, hn3⟩ := h.val
  have hn := val_mono (Nat.le_max_left n3 n2) hn3
  have hle := Nat.le_max_right n3 n2
  generalize max n3 n2 = n at hn hle
  cases hp with
  | property k =>
    obtain ⟨m, hg, hc⟩ := hop_property hc
    have hpm := get_points hg
    obtain ⟨ps, hps, h1, h2⟩ := part_properties h.closed h.tree hn h.lt hg hq fun x hx =>
      .head (tm_entry hc) (hT x hx)
    have := h2 _ (typeMap_at h.closed (h.tree.sub (.single hpm)) (h.closed _ _ hpm) hc hq hT
      (hv n hle) hps)
    refine ⟨n + 1, this.trans ?_⟩
    obtain ⟨_, _, _, _, _, rfl, hps'⟩ := get_properties hn hg
    cases hps.symm.trans hps'
    rfl
  | items =>
    have hg := hop_items hc
    obtain ⟨_, _, _, _, w, rfl, hw⟩ := get_items hn hg
    have hpc := get_points hg
    obtain ⟨t', ht', hv'⟩ := items_exact h.closed hn hg hq (fun o ho => ⟨fun e => by
        have := hT o ho
        rw [e] at this
        exact h.tree.acyclic .refl (TransGen.head' hpc this), fun p hp hne hrp =>
          h.tree.apart hpc hp (Ne.symm hne) o (hT o ho) hrp⟩) (hv n hle w hw) h.lt
    cases ht'
    exact ⟨n + 1, hv'⟩
  | facet k k' =>
    obtain ⟨m, u', hg, hu', hc⟩ := hop_facet hc
    have hpm := get_points hg
    have hpu := facetMap_entry hu'
    have hru : H.Reaches (.ty a) (.tm u') := .head hpm (.single hpu)
    obtain ⟨_, _, _, _, _, e, -⟩ := get_facets hn hg
    have := val_facetAt (H' := H') h hg hu' hq
      (fun x hx => .head (tm_entry hc) (hT x hx)) (n0 := n2) (g := fun y => y.change k' g)
      fun n y hle hy => typeMap_at h.closed (h.tree.sub hru) (h.closed _ _ hpu) hc hq hT
        (hv n hle) hy
    subst e
    exact this

/-- A step on a data type in a data type. -/
theorem hop_ok (h : TreeSim X a H t) {hp : Hop} {c : Addr} (hc : H.hop a hp = some c) {g : DT → DT}
    {as : List Act} (hs : ∀ u, TreeSim X c H u → StepOk X H c as (g u)) :
    StepOk X H a as (t.through g hp) := by
  have hr := hop_reaches hc
  obtain ⟨n1, u, hu⟩ := hop_val h hc
  have ho := hs u (h.below hr hu)
  obtain ⟨T, hq, hT⟩ := ho.moves.only
  exact ⟨ho.moves.up hr, hop_change h hc hq hT fun u hu => (hs u hu).val⟩

/-- The getters lead nowhere. -/
theorem hop_none (h : TreeSim X a H t) {hp : Hop} (hc : H.hop a hp = none) (g : DT → DT) :
    t.through g hp = t := by
  obtain ⟨n, hn⟩ := h.val
  cases hp with
  | property k =>
    cases hg : H.getMap a .properties with
    | none =>
      have := part_none hn (h.reach.sound a) (getMap_none hg)
      cases t with
      | basic => rfl
      | ext c b fs ps it => cases b <;> first | rfl | cases this
    | some m =>
      have hg : H.get a .properties = some (.tm m) := getMap_some hg
      obtain ⟨_, _, _, _, _, rfl, hps⟩ := get_properties hn hg
      simp only [Heap.hop, hg] at hc
      simp only [DT.through, change_none hps hc g]
  | items =>
    cases hg : H.getMap a .items with
    | none =>
      have := part_none hn (h.reach.sound a) (getMap_none hg)
      cases t with
      | basic => rfl
      | ext c b fs ps it =>
        cases b <;> first | rfl | skip
        simp only [DT.part, Option.map_eq_none_iff] at this
        subst this
        rfl
    | some m =>
      have hg : H.get a .items = some (.ty m) := getMap_some hg
      simp only [Heap.hop, hg] at hc
      cases hc
  | facet k k' =>
    cases hg : H.getMap a .facets with
    | none =>
      have := part_none hn (h.reach.sound a) (getMap_none hg)
      cases t with
      | basic => rfl
      | ext c b fs ps it => cases this
    | some m =>
      have hg : H.get a .facets = some (.fm m) := getMap_some hg
      obtain ⟨_, _, _, _, _, rfl, hfs⟩ := get_facets hn hg
      simp only [Heap.hop, hg] at hc
      cases hu : (H.fm m).get k with
      | none => simp only [DT.through, change_none hfs hu]
      | some u =>
        simp only [hu] at hc
        obtain ⟨y, hy⟩ := get_value hfs hu
        have := change_none hy hc g
        have e : ∀ f : OM String (OM String DT), followMap (H.typeMap n) (H.fm m) = some f →
            (f.change k fun _ => y) = f := by
          intro f hf
          have hp := get_points hg
          have := change_get (r' := H.typeMap n) hf hu (by
            have := (h.tree.sub (.single hp)).nodup _ .refl
            simp only [Heap.refs] at this
            refine List.Nodup.of_map Obj.tm ?_
            rw [List.map_map]
            exact this) (g := fun _ => y) hy hy fun _ _ _ => rfl
          exact Option.some.inj (this.symm.trans hf)
        simp only [DT.through]
        rw [change_congr hfs hu hy, this, e _ hfs]

/-- A step at the end of a way. -/
theorem walk_ok (s : TypeStep) (hs : List Hop) (h : TreeSim X a H t) :
    StepOk X H a (match H.walk hs a with
      | some c => s.acts X H c
      | none => []) (t.within (fun u => u.alter X s) hs) := by
  induction hs generalizing a t with
  | nil => exact step_ok h s
  | cons hp hs ih =>
    simp only [Heap.walk, DT.within]
    cases hc : H.hop a hp with
    | none => exact ok_nil h (hop_none h hc _)
    | some c => exact hop_ok h hc fun u hu => ih hu

end walk

/-! ### Steps on documents -/

section docs
variable {X : Xyml} {H : Heap}

theorem sprouts_parse (hw : H.Closed) (v : Node) : Sprouts H (H.act X (.parseType v)) := by
  cases hv : hat X v with
  | ok u =>
    have hst := storeT_ok u H
    have h1 : H.act X (.parseType v) = (H.storeT u).2 := by simp only [Heap.act, hv]
    rw [h1]; exact sprouts_ext hw (hst.closed hw) hst.ext
  | err e =>
    have h1 : H.act X (.parseType v) = H := by simp only [Heap.act, hv]
    rw [h1]; exact .refl hw
  | panic c =>
    have h1 : H.act X (.parseType v) = H := by simp only [Heap.act, hv]
    rw [h1]; exact .refl hw

theorem sprouts_setApiV (hw : H.Closed) (d : Addr) (f : APISpec → APISpec) :
    Sprouts H (H.setApiV d f) := by
  refine sprouts_refs hw rfl fun o => ?_
  cases o with
  | api e =>
    by_cases he : e = d
    · subst he; simp only [Heap.refs, Heap.setApiV, upd_self]
    · simp only [Heap.refs, Heap.setApiV, upd_ne _ _ he]
  | _ => rfl

theorem sprouts_setLibV (hw : H.Closed) (d : Addr) (f : Library → Library) :
    Sprouts H (H.setLibV d f) := by
  refine sprouts_refs hw rfl fun o => ?_
  cases o with
  | lib e =>
    by_cases he : e = d
    · subst he; simp only [Heap.refs, Heap.setLibV, upd_self]
    · simp only [Heap.refs, Heap.setLibV, upd_ne _ _ he]
  | _ => rfl

theorem docStep_sprouts (hw : H.Closed) {x : Holder} (hx : x.obj.addr < H.next) (st : DocStep) :
    Sprouts H (H.run X (st.acts X H x)) := by
  have hcall : ∀ {m} {op : OMap.Op String Addr}, H.sec x .types = some (.tm m) →
      ((∃ k, op = .delete k) ∨ ∃ b, op = .serializeOrdered b) →
      Sprouts H (H.edit (.tm m fun y => y.call op)) := by
    intro m op hs ho
    have hsub := sub_call (H.tm m) ho
    refine sprouts_drop hw (quiet_tm H m fun e he =>
      hw (.tm m) (.ty e.2) (List.mem_map.mpr ⟨e, hsub.subset he, rfl⟩)) ?_
    simp only [Heap.refs, Heap.edit, upd_self]
    exact hsub.map _
  have hn : ∀ y : Addr, (none : Option Addr) = some y → y < H.next := fun _ h => by cases h
  have huApi : ∀ {d op as}, H.Legal (.setApi d op) → H.Keeps (.setApi d op) →
      as = [Act.setApi d op] → Sprouts H (H.run X as) := fun hl hk e => by
    rw [e]; exact sprouts_unsetApi hw hl hk
  have huLib : ∀ {d op as}, H.Legal (.setLib d op) → H.Keeps (.setLib d op) →
      as = [Act.setLib d op] → Sprouts H (H.run X as) := fun hl hk e => by
    rw [e]; exact sprouts_unsetLib hw hl hk
  cases st with
  | onApi op =>
    cases x with
    | api d =>
      show Sprouts H (if op.plain then H.setApiV d fun a => a.apply op else H)
      split
      · exact sprouts_setApiV hw d _
      · exact .refl hw
    | lib d => exact .refl hw
  | onLib op =>
    cases x with
    | api d => exact .refl hw
    | lib d =>
      show Sprouts H (if op.plain then H.setLibV d fun a => a.apply op else H)
      split
      · exact sprouts_setLibV hw d _
      · exact .refl hw
  | unset s =>
    cases x with
    | api d => cases s <;> first
      | exact .refl hw
      | (refine huApi ?_ ?_ rfl; exacts [⟨hx, hn⟩, rfl])
    | lib d => cases s <;> first
      | exact .refl hw
      | (refine huLib ?_ ?_ rfl; exacts [⟨hx, hn⟩, rfl])
  | load v =>
    cases x with
    | api d => exact sprouts_apiLoad X d v hw
    | lib d => exact sprouts_libLoad X d v hw
  | nodes s f =>
    simp only [DocStep.acts]
    split
    · exact sprouts_refs hw rfl fun o => by cases o <;> rfl
    · exact .refl hw
  | anns f =>
    simp only [DocStep.acts]
    split
    · exact sprouts_refs hw rfl fun o => by cases o <;> rfl
    · exact .refl hw
  | strings f =>
    simp only [DocStep.acts]
    split
    · exact sprouts_refs hw rfl fun o => by cases o <;> rfl
    · exact .refl hw
  | extra f =>
    simp only [DocStep.acts]
    split
    · exact sprouts_refs hw rfl fun o => by cases o <;> rfl
    · exact .refl hw
  | putType k v =>
    simp only [DocStep.acts]
    split
    · rename_i m t hs hv
      have e : H.run X [.parseType v, .edit (.tm m fun y => y.put k (H.storeT t).1)] =
          H.putType m k t := by
        simp only [hv, Heap.run, List.foldl_cons, List.foldl_nil, Heap.act, Heap.edit, Heap.putType]
      rw [e]
      exact (plants_putType hw (hw _ _ (sec_points hs)) k t).sprouts hw
    · exact sprouts_parse hw v
  | dropType k =>
    simp only [DocStep.acts]
    split
    · rename_i m hs
      exact hcall hs (Or.inl ⟨k, rfl⟩)
    · exact .refl hw
  | orderTypes b =>
    simp only [DocStep.acts]
    split
    · rename_i m hs
      exact hcall hs (Or.inr ⟨b, rfl⟩)
    · exact .refl hw

theorem docStep_moves (hw : H.Closed) {x : Holder} (hx : x.obj.addr < H.next) (st : DocStep) :
    Moves X H x.obj (st.acts X H x) :=
  let h := step_facts X hw hx st
  ⟨h.legal, docStep_sprouts hw hx st, h.only⟩

/-- The types of a document. -/
def DocVal.types : DocVal → OM String DT
  | .api a => a.types
  | .lib l => l.types

theorem docVal_types {n : Nat} {x : Holder} {v : DocVal} (hv : H.docVal n x = some v) :
    ∃ m, H.sec x .types = some (.tm m) ∧ H.typeMap n m = some v.types := by
  cases x with
  | api d =>
    obtain ⟨s, hs, rfl⟩ := Option.map_eq_some_iff.mp hv
    obtain ⟨ts, hts, rfl⟩ := Option.map_eq_some_iff.mp hs
    exact ⟨_, rfl, hts⟩
  | lib d =>
    obtain ⟨s, hs, rfl⟩ := Option.map_eq_some_iff.mp hv
    obtain ⟨ts, hts, rfl⟩ := Option.map_eq_some_iff.mp hs
    exact ⟨_, rfl, hts⟩

theorem docVal_mono {n n' : Nat} (hle : n ≤ n') {x : Holder} {v : DocVal}
    (hv : H.docVal n x = some v) : H.docVal n' x = some v := by
  cases x with
  | api d =>
    obtain ⟨s, hs, rfl⟩ := Option.map_eq_some_iff.mp hv
    obtain ⟨ts, hts, rfl⟩ := Option.map_eq_some_iff.mp hs
    simp only [Heap.docVal, Heap.apiVal, mapMono hle hts, Option.map_some]
  | lib d =>
    obtain ⟨s, hs, rfl⟩ := Option.map_eq_some_iff.mp hv
    obtain ⟨ts, hts, rfl⟩ := Option.map_eq_some_iff.mp hs
    simp only [Heap.docVal, Heap.libVal, mapMono hle hts, Option.map_some]

/-- A change below the types of a document. -/
theorem part_types {H' : Heap} {n : Nat} {x : Holder} {v : DocVal} {T : List Obj} (hw : H.Closed)
    (ht : H.Tree x.obj) (hv : H.docVal n x = some v) (hx : x.obj.addr < H.next) {m : Addr}
    (hs : H.sec x .types = some (.tm m)) (hq : Only T H H')
    (hT : ∀ y ∈ T, H.Reaches (.tm m) y) {g : OM String DT → OM String DT}
    (hnew : H'.typeMap n m = some (g v.types)) : H'.docVal n x = some (v.onTypes g) := by
  have hp := sec_points hs
  have hk : ∀ y, H.Points x.obj y → y ≠ .tm m → Same H H' y := fun y hy hne =>
    ht.beside hw hq hp hT hy hne _ .refl
  have hown : Same H H' x.obj := ht.above hq hx hp hT
  cases x with
  | api d =>
    obtain ⟨s, hs', rfl⟩ := Option.map_eq_some_iff.mp hv
    obtain ⟨ts, hts, rfl⟩ := Option.map_eq_some_iff.mp hs'
    cases hs
    have h0 : H.api d = H'.api d := hown
    have h1 : H.um (H.api d).traits = H'.um (H.api d).traits :=
      hk (.um _) (by simp [Heap.Points, Heap.refs, Holder.obj]) (by simp)
    have h2 : H.um (H.api d).resourceTypes = H'.um (H.api d).resourceTypes :=
      hk (.um _) (by simp [Heap.Points, Heap.refs, Holder.obj]) (by simp)
    have h3 : H.um (H.api d).annotationTypes = H'.um (H.api d).annotationTypes :=
      hk (.um _) (by simp [Heap.Points, Heap.refs, Holder.obj]) (by simp)
    have h4 : H.am (H.api d).annotations = H'.am (H.api d).annotations :=
      hk (.am _) (by simp [Heap.Points, Heap.refs, Holder.obj]) (by simp)
    have h5 : H.um (H.api d).securitySchemes = H'.um (H.api d).securitySchemes :=
      hk (.um _) (by simp [Heap.Points, Heap.refs, Holder.obj]) (by simp)
    have h6 : H.um (H.api d).baseURIParameters = H'.um (H.api d).baseURIParameters :=
      hk (.um _) (by simp [Heap.Points, Heap.refs, Holder.obj]) (by simp)
    have h7 : H.sm (H.api d).uses = H'.sm (H.api d).uses :=
      hk (.sm _) (by simp [Heap.Points, Heap.refs, Holder.obj]) (by simp)
    have h8 : H.um (H.api d).resources = H'.um (H.api d).resources :=
      hk (.um _) (by simp [Heap.Points, Heap.refs, Holder.obj]) (by simp)
    have h9 : H.xm (H.api d).extra = H'.xm (H.api d).extra :=
      hk (.xm _) (by simp [Heap.Points, Heap.refs, Holder.obj]) (by simp)
    unfold Heap.typeMap at hnew
    simp only [Heap.docVal, Heap.apiVal, ← h0, hnew, Option.map_some, DocVal.onTypes,
      Heap.apiWith, h1, h2, h3, h4, h5, h6, h7, h8, h9, DocVal.types]
  | lib d =>
    obtain ⟨s, hs', rfl⟩ := Option.map_eq_some_iff.mp hv
    obtain ⟨ts, hts, rfl⟩ := Option.map_eq_some_iff.mp hs'
    cases hs
    have h0 : H.lib d = H'.lib d := hown
    have h1 : H.um (H.lib d).traits = H'.um (H.lib d).traits :=
      hk (.um _) (by simp [Heap.Points, Heap.refs, Holder.obj]) (by simp)
    have h2 : H.um (H.lib d).resourceTypes = H'.um (H.lib d).resourceTypes :=
      hk (.um _) (by simp [Heap.Points, Heap.refs, Holder.obj]) (by simp)
    have h3 : H.um (H.lib d).annotationTypes = H'.um (H.lib d).annotationTypes :=
      hk (.um _) (by simp [Heap.Points, Heap.refs, Holder.obj]) (by simp)
    have h4 : H.am (H.lib d).annotations = H'.am (H.lib d).annotations :=
      hk (.am _) (by simp [Heap.Points, Heap.refs, Holder.obj]) (by simp)
    have h5 : H.um (H.lib d).securitySchemes = H'.um (H.lib d).securitySchemes :=
      hk (.um _) (by simp [Heap.Points, Heap.refs, Holder.obj]) (by simp)
    have h7 : H.sm (H.lib d).uses = H'.sm (H.lib d).uses :=
      hk (.sm _) (by simp [Heap.Points, Heap.refs, Holder.obj]) (by simp)
    have h9 : H.xm (H.lib d).extra = H'.xm (H.lib d).extra :=
      hk (.xm _) (by simp [Heap.Points, Heap.refs, Holder.obj]) (by simp)
    unfold Heap.typeMap at hnew
    simp only [Heap.docVal, Heap.libVal, ← h0, hnew, Option.map_some, DocVal.onTypes,
      Heap.libWith, h1, h2, h3, h4, h5, h7, h9, DocVal.types]

theorem onTypes_id {v : DocVal} {g : OM String DT → OM String DT} (h : g v.types = v.types) :
    v.onTypes g = v := by
  cases v with
  | api a => simp only [DocVal.onTypes]; simp only [DocVal.types] at h; rw [h]
  | lib l => simp only [DocVal.onTypes]; simp only [DocVal.types] at h; rw [h]

end docs

/-! ### Programs -/

/-- What a program holds is a tree and stands for the value. -/
structure RootSim (X : Xyml) (r : Root) (H : Heap) (v : RootVal) : Prop where
  reach : Reachable X H
  lt : r.obj.addr < H.next
  tree : H.Tree r.obj
  val : ∃ n, H.rootVal n r = some v

theorem moves_stay {X : Xyml} {H : Heap} {o : Obj} (hw : H.Closed) {r : Root} {v : RootVal}
    (hv : ∃ n, H.rootVal n r = some v) {v' : RootVal} (e : v' = v) :
    Moves X H o [] ∧ ∃ n, (H.run X []).rootVal n r = some v' := by
  subst e
  exact ⟨moves_nil X hw _, hv⟩

/-- Every step is the step on the value. -/
theorem rootStep_ok {X : Xyml} {r : Root} {H : Heap} {v : RootVal} (h : RootSim X r H v)
    (st : RootStep) :
    Moves X H r.obj (st.acts X H r) ∧ ∃ n, (H.run X (st.acts X H r)).rootVal n r = some (v.step X st) := by
  have hw := h.reach.closed
  cases r with
  | type a =>
    obtain ⟨n, hn⟩ := h.val
    obtain ⟨t, ht, rfl⟩ := Option.map_eq_some_iff.mp hn
    have hs : TreeSim X a H t := ⟨h.reach, h.lt, h.tree, n, ht⟩
    cases st with
    | inside hs' s =>
      have ho := walk_ok s hs' hs
      refine ⟨ho.moves, ?_⟩
      obtain ⟨n', hn'⟩ := ho.val
      exact ⟨n', congrArg (Option.map RootVal.type) hn'⟩
    | doc s => exact moves_stay hw h.val rfl
    | declared k hs' s => exact moves_stay hw h.val rfl
  | doc x =>
    obtain ⟨n, hn⟩ := h.val
    obtain ⟨d, hd, rfl⟩ := Option.map_eq_some_iff.mp hn
    cases st with
    | inside hs' s => exact moves_stay hw h.val rfl
    | doc s =>
      refine ⟨docStep_moves hw h.lt s, ?_⟩
      obtain ⟨n', hn'⟩ := (docStep_sim (X := X) (x := x) ⟨hw, h.lt, Heap.Tree.own h.tree, n, hd⟩ s).val
      exact ⟨n', congrArg (Option.map RootVal.doc) hn'⟩
    | declared k hs' s =>
      obtain ⟨m, hm, hty⟩ := docVal_types hd
      have hpm := sec_points hm
      simp only [RootStep.acts, hm, RootVal.step]
      cases hc : (H.tm m).get k with
      | none =>
        refine moves_stay hw h.val ?_
        rw [onTypes_id (change_none hty hc _)]
      | some c =>
        have hpc := tm_entry hc
        have hr : H.Reaches x.obj (.ty c) := .head hpm (.single hpc)
        obtain ⟨u, hu⟩ := get_value hty hc
        have hlt : c < H.next := hw _ _ hpc
        have ho := walk_ok s hs' (X := X) (t := u) ⟨h.reach, hlt, h.tree.sub hr, n, hu⟩
        dsimp only
        refine ⟨ho.moves.up hr, ?_⟩
        obtain ⟨T, hq, hT⟩ := ho.moves.only
        obtain ⟨n2, hu'⟩ := ho.val
        have hd' := docVal_mono (Nat.le_max_left n n2) hd
        have hty' := mapMono (Nat.le_max_left n n2) hty
        refine ⟨max n n2, congrArg (Option.map RootVal.doc) (part_types hw h.tree hd' h.lt hm hq
          (fun y hy => .head hpc (hT y hy)) ?_)⟩
        refine typeMap_at hw (h.tree.sub (.single hpm)) (hw _ _ hpm) hc hq hT (fun w hw' => ?_) hty'
        rw [← val_unique hu hw']
        exact val_mono (Nat.le_max_right n n2) hu'

/-- Nothing changes in what shares nothing. -/
theorem RootSim.elsewhere {X : Xyml} {r : Root} {o : Obj} {H : Heap} {v : RootVal}
    (h : RootSim X r H v) {as : List Act} (hm : Moves X H o as) (ha : H.Apart o r.obj) :
    RootSim X r (H.run X as) v := by
  obtain ⟨T, hq, hT⟩ := hm.only
  have hs : SameFrom H (H.run X as) r.obj :=
    only_sameFrom h.reach.closed hq h.lt fun x hx hr => ha x (hT x hx) hr
  refine ⟨reachable_run h.reach hm.legal, Nat.lt_of_lt_of_le h.lt hq.next,
    hm.sprouts.tree _ h.lt h.tree, ?_⟩
  obtain ⟨n, hn⟩ := h.val
  refine ⟨n, ?_⟩
  rw [← hn]
  cases r with
  | type a => simp only [Heap.rootVal, sameFrom_val n hs]
  | doc x =>
    cases x with
    | api d => simp only [Heap.rootVal, Heap.docVal, sameFrom_apiVal n hs]
    | lib d => simp only [Heap.rootVal, Heap.docVal, sameFrom_libVal n hs]

/-- Trees that share nothing. -/
structure RootsSim (X : Xyml) (P : Root → Prop) (H : Heap) (vals : Root → RootVal) : Prop where
  sim : ∀ r, P r → RootSim X r H (vals r)
  apart : ∀ r r', P r → P r' → r ≠ r' → H.Apart r.obj r'.obj

theorem roots_step {X : Xyml} {P : Root → Prop} {H : Heap} {vals : Root → RootVal}
    (h : RootsSim X P H vals) {r : Root} (hr : P r) (st : RootStep) :
    RootsSim X P (H.run X (st.acts X H r))
      fun y => if y = r then (vals r).step X st else vals y := by
  obtain ⟨hm, hv⟩ := rootStep_ok (h.sim r hr) st
  refine ⟨fun y hy => ?_, fun y z hy hz hne => ?_⟩
  · by_cases hyr : y = r
    · subst hyr
      rw [if_pos rfl]
      exact ⟨reachable_run (h.sim y hy).reach hm.legal,
        Nat.lt_of_lt_of_le (h.sim y hy).lt hm.sprouts.by_.next,
        hm.sprouts.tree _ (h.sim y hy).lt (h.sim y hy).tree, hv⟩
    · rw [if_neg hyr]
      exact (h.sim y hy).elsewhere hm (h.apart r y hr hy (Ne.symm hyr))
  · exact hm.sprouts.by_.apart _ _ (h.sim y hy).lt (h.sim z hz).lt (h.apart y z hy hz hne)

theorem roots_run {X : Xyml} {P : Root → Prop} (ps : List (Root × RootStep))
    (hps : ∀ p ∈ ps, P p.1) {H : Heap} {vals : Root → RootVal} (h : RootsSim X P H vals) :
    RootsSim X P (H.runRoots X ps) fun r => (rootSteps r ps).foldl (RootVal.step X) (vals r) := by
  induction ps generalizing H vals with
  | nil => exact h
  | cons p ps ih =>
    have := ih (fun q hq => hps q (List.mem_cons_of_mem _ hq))
      (roots_step (X := X) h (hps p List.mem_cons_self) p.2)
    have e : (fun r => (rootSteps r (p :: ps)).foldl (RootVal.step X) (vals r)) = fun r =>
        (rootSteps r ps).foldl (RootVal.step X)
          (if r = p.1 then (vals p.1).step X p.2 else vals r) := by
      funext r
      by_cases hr : r = p.1
      · subst hr
        simp only [rootSteps, List.filter_cons, decide_true, if_true, List.map_cons, List.foldl_cons]
      · have hd : decide (p.1 = r) = false := decide_eq_false fun e => hr e.symm
        simp only [rootSteps, List.filter_cons, hd, if_neg hr, Bool.false_eq_true, if_false]
    rw [e]
    exact this

/-- An object that points only to objects that point to nothing. -/
theorem tree_leaves {H : Heap} {o : Obj} (hn : (H.refs o).Nodup)
    (hl : ∀ y ∈ H.refs o, H.refs y = []) : H.Tree o := by
  have hself : ∀ y, H.Points o y → y ≠ o := fun y hy e => by
    subst e
    have := hl y hy
    rw [Heap.Points, this] at hy
    cases hy
  have hleaf : ∀ y, H.Points o y → ∀ z, H.Reaches y z → z = y := fun y hy z hz => by
    rcases ReflTransGen.cases_head hz with e | ⟨w, hw, _⟩
    · exact e.symm
    · rw [Heap.Points, hl y hy] at hw; cases hw
  exact tree_of hn (fun y hy => tree_leaf (hl y hy))
    (fun y y' hy hy' hne x hx hx' => hne ((hleaf y hy x hx).symm.trans (hleaf y' hy' x hx')))
    fun y hy hr => hself y hy (hleaf y hy o hr).symm

theorem rootWrite_eq {X : Xyml} {H : Heap} {n : Nat} {r : Root} {v : RootVal}
    (h : H.rootVal n r = some v) : H.rootWrite X n r = some (v.toYAML X) := by
  cases r with
  | type a =>
    obtain ⟨t, ht, rfl⟩ := Option.map_eq_some_iff.mp h
    simp only [Heap.rootWrite, write_eq, ht, Option.map_some, RootVal.toYAML]
  | doc x =>
    obtain ⟨d, hd, rfl⟩ := Option.map_eq_some_iff.mp h
    cases x with
    | api d =>
      obtain ⟨s, hs, rfl⟩ := Option.map_eq_some_iff.mp hd
      simp only [Heap.rootWrite, Heap.docWrite, apiWrite_eq, hs, Option.map_some, DocVal.toYAML,
        RootVal.toYAML]
    | lib d =>
      obtain ⟨s, hs, rfl⟩ := Option.map_eq_some_iff.mp hd
      simp only [Heap.rootWrite, Heap.docWrite, libWrite_eq, hs, Option.map_some, DocVal.toYAML,
        RootVal.toYAML]

theorem tree_newApi (H : Heap) : H.newApi.2.Tree (.api H.next) := by
  have hrefs : H.newApi.2.refs (.api H.next) = [.tm H.next, .um H.next, .um (H.next + 1),
      .um (H.next + 2), .am H.next, .um (H.next + 3), .um (H.next + 4), .sm H.next,
      .um (H.next + 5), .xm H.next] := by
    simp only [Heap.refs, Heap.newApi, upd_self]
  have hleaf : ∀ o ∈ H.newApi.2.refs (.api H.next), H.newApi.2.refs o = [] := by
    intro o ho
    rw [hrefs] at ho
    simp only [List.mem_cons, List.not_mem_nil, or_false] at ho
    rcases ho with rfl | rfl | rfl | rfl | rfl | rfl | rfl | rfl | rfl | rfl <;>
      simp [Heap.refs, Heap.newApi, upd_self, OM.empty]
  refine tree_leaves ?_ hleaf
  rw [hrefs]
  simp

theorem tree_newLib (H : Heap) : H.newLib.2.Tree (.lib H.next) := by
  have hrefs : H.newLib.2.refs (.lib H.next) = [.tm H.next, .um H.next, .um (H.next + 1),
      .um (H.next + 2), .am H.next, .um (H.next + 3), .sm H.next, .xm H.next] := by
    simp only [Heap.refs, Heap.newLib, upd_self]
  have hleaf : ∀ o ∈ H.newLib.2.refs (.lib H.next), H.newLib.2.refs o = [] := by
    intro o ho
    rw [hrefs] at ho
    simp only [List.mem_cons, List.not_mem_nil, or_false] at ho
    rcases ho with rfl | rfl | rfl | rfl | rfl | rfl | rfl | rfl <;>
      simp [Heap.refs, Heap.newLib, upd_self, OM.empty]
  refine tree_leaves ?_ hleaf
  rw [hrefs]
  simp

end Verif.Doc
