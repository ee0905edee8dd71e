import Verif.Doc.HeapParts
import Verif.Doc.HeapDocStep

/-! # Loading into a data type object as loading into its value -/

namespace Verif.Doc
open Relation

/-! ### Object types always have their maps of properties -/

theorem loadTm_sound (X : Xyml) (m : Addr) (v : Node) {H : Heap} (h : H.Sound) :
    (H.loadTm X m v).1.Sound := by
  unfold Heap.loadTm
  refine liveMap_inv (R := fun H H' => H.Sound → H'.Sound) (fun _ => id)
    (fun h h' hs => h' (h hs)) (fun k v H => ?_) v H h
  exact store_inv (R := fun H H' => H.Sound → H'.Sound) (fun _ => id) _
    (fun H (e : String × DT) h => putType_sound h) H

theorem apiLoad_sound (X : Xyml) (d : Addr) (v : Node) {H : Heap} (h : H.Sound) :
    (H.apiLoad X d v).1.Sound := by
  unfold Heap.apiLoad
  refine liveMap_inv (R := fun H H' => H.Sound → H'.Sound) (fun _ => id)
    (fun h h' hs => h' (h hs)) (fun k v H hs => ?_) v H h
  rcases apiAssign_or X d k v H with h | h
  · exact sound_of_ty h.1 hs
  · rw [h]; exact loadTm_sound X _ v hs

theorem libLoad_sound (X : Xyml) (d : Addr) (v : Node) {H : Heap} (h : H.Sound) :
    (H.libLoad X d v).1.Sound := by
  unfold Heap.libLoad
  refine liveMap_inv (R := fun H H' => H.Sound → H'.Sound) (fun _ => id)
    (fun h h' hs => h' (h hs)) (fun k v H hs => ?_) v H h
  rcases libAssign_or X d k v H with h | h
  · exact sound_of_ty h.1 hs
  · rw [h]; exact loadTm_sound X _ v hs

theorem apply_sound {o o' : TypeObj} {op : TypeOp} (h : o.apply op = some o') (hs : o.Sound) :
    o'.Sound := by
  cases o with
  | basic i s x => cases op <;> cases h; trivial
  | ext hd p b f ps it =>
    simp only [TypeObj.apply] at h
    split at h
    · cases h; exact hs
    · obtain ⟨b', hb, rfl⟩ := Option.map_eq_some_iff.mp h
      cases b <;> cases op <;> cases hb <;> exact hs

theorem setPtr_sound {H H' : Heap} {a : Addr} {op : PtrOp} (h : H.setPtr a op = some H')
    (hs : H.Sound) : H'.Sound := by
  cases hty : H.ty a with
  | basic i s x => cases op <;> simp only [Heap.setPtr, hty] at h <;> cases h
  | ext hd p b f ps it =>
    have ha := hs a
    rw [hty] at ha
    cases op with
    | setItems m =>
      cases b <;> simp only [Heap.setPtr, hty] at h <;> cases h
      refine sound_upd hs ?_ rfl
      exact ha
    | setProperties m =>
      cases b <;> simp only [Heap.setPtr, hty] at h <;> cases h
      refine sound_upd hs ?_ rfl
      exact fun _ => by simp
    | _ m =>
      simp only [Heap.setPtr, hty] at h; cases h
      refine sound_upd hs ?_ rfl
      exact ha

theorem Reachable.sound {X : Xyml} {H : Heap} (h : Reachable X H) : H.Sound := by
  induction h with
  | start => exact fun a => trivial
  | @act H s hr hl ih =>
    cases s with
    | newType k => exact storeT_sound _ _ ih
    | parseType v =>
      simp only [Heap.act]
      split
      · exact storeT_sound _ _ ih
      · exact ih
    | onType a c =>
      simp only [Heap.act]
      cases h : H.typeCall a c with
      | none => exact ih
      | some H' =>
        cases c with
        | plain op =>
          simp only [Heap.typeCall] at h
          split at h
          · cases ho : (H.ty a).apply op with
            | none => rw [ho] at h; cases h
            | some o => rw [ho] at h; cases h; exact sound_upd ih (apply_sound ho (ih a)) rfl
          · cases h
        | ptr op => exact setPtr_sound h ih
    | edit e => cases e <;> exact ih
    | loadApi d v => exact apiLoad_sound X d v ih
    | loadLib d v => exact libLoad_sound X d v ih
    | loadType a v => exact (loads_typeLoad X a v H hl).sound ih
    | onApi d op => simp only [Heap.act]; split <;> exact ih
    | onLib d op => simp only [Heap.act]; split <;> exact ih
    | setApi d op => cases op <;> exact ih
    | setLib d op => cases op <;> exact ih
    | _ => exact ih

/-! ### The simulation -/

/-- A data type that owns its maps and stands for the value. -/
structure TypeSim (a : Addr) (H : Heap) (t : DT) : Prop where
  closed : H.Closed
  lt : a < H.next
  own : H.OwnMaps a
  sound : (H.ty a).Sound
  val : ∃ n, H.val n a = some t

section sim
variable {a : Addr} {H : Heap} {t : DT}

/-- Data types own their maps as long as these are not handed over. -/
theorem ownMaps_grows {H' : Heap} (hg : GrowsBy H H') (hw : H.Closed) (ha : a < H.next)
    (hm : H'.maps a = H.maps a) (ho : H.OwnMaps a) : H'.OwnMaps a := by
  intro s hs o' hre hpt
  rw [hm] at hs
  have hlt : s.addr < H.next := hw _ _ (maps_points hs)
  rcases hg.reaches (o := .ty a) hw ha hre with h1 | h1
  · rcases hg.ptr _ _ (closed_reaches hw h1 ha) hpt with h2 | h2
    · exact ho s hs o' h1 h2
    · exact absurd hlt (Nat.not_lt.mpr h2.self.1)
  · exact absurd hlt (Nat.not_lt.mpr (h1.step hpt).self.1)

theorem TypeSim.grow {H' : Heap} {t' : DT} (h : TypeSim a H t) (hg : GrowsBy H H')
    (hk : (H.ty a).Kept (H'.ty a)) (hv : ∃ n, H'.val n a = some t') : TypeSim a H' t' :=
  ⟨hg.closed, Nat.lt_of_lt_of_le h.lt hg.next, ownMaps_grows hg h.closed h.lt (kept_maps hk) h.own,
    kept_sound hk h.sound, hv⟩

theorem extends_sameFrom {H' : Heap} (hw : H.Closed) (he : Extends H H') {o : Obj}
    (ho : o.addr < H.next) : SameFrom H H' o := fun x hx => he.same x (closed_reaches hw hx ho)

/-- New objects change nothing. -/
theorem TypeSim.extends {H' : Heap} (h : TypeSim a H t) (he : Extends H H') (hc : H'.Closed) :
    TypeSim a H' t := by
  have hty : H.ty a = H'.ty a := he.same (.ty a) h.lt
  refine h.grow ((grows_ext (p := .ty a) hc he).by h.closed) (by rw [hty]; exact .refl _) ?_
  obtain ⟨n, hn⟩ := h.val
  exact ⟨n, (sameFrom_val n (extends_sameFrom h.closed he h.lt)).symm.trans hn⟩

/-- The map that `get` returns is among the maps. -/
theorem get_maps {s : TypeSec} {o : Obj} (hs : s.key = none) (hg : H.get a s = some o) :
    o ∈ H.maps a := by
  cases hty : H.ty a with
  | basic i x m =>
    cases s <;> simp only [Heap.get, hty] at hg <;> cases hg
    simp [Heap.maps, hty]
  | ext h p b f ps it =>
    cases s <;> (try (cases hs; done)) <;> simp only [Heap.get, hty] at hg
    · cases hg; simp [Heap.maps, hty]
    · cases hg; simp [Heap.maps, hty]
    · cases hg; simp [Heap.maps, hty]
    · cases hg; simp [Heap.maps, hty]
    · cases b <;> simp only [reduceCtorEq] at hg
      obtain ⟨m, rfl, rfl⟩ := Option.map_eq_some_iff.mp hg
      simp [Heap.maps, hty]

theorem get_eq {H' : Heap} (h : H'.ty a = H.ty a) (s : TypeSec) : H'.get a s = H.get a s := by
  simp only [Heap.get, h]

/-- Putting a new example into the map of examples. -/
theorem TypeSim.putEx {h : Hdr} {b : Body} {fs : OM String (OM String DT)} {ps : OM String DT}
    {it : Option DT} (hs : TypeSim a H (.ext h b fs ps it)) {m : Addr}
    (hg : H.get a .examples = some (.em m)) (k : String) (e : Example) :
    TypeSim a (H.putEx m k e) (.ext { h with examples := h.examples.put k e } b fs ps it) := by
  have hm : m < H.next := hs.closed _ _ (maps_points (get_maps rfl hg))
  have h1 := hs.extends (extends_storeEx H e) (closed_storeEx hs.closed e)
  obtain ⟨n, hn⟩ := h1.val
  have hg1 : (H.storeEx e).get a .examples = some (.em m) := hg
  refine hs.grow ((grows_putEx hs.closed m k e).by hs.closed) (.refl _) ⟨n + 1, ?_⟩
  have hl : (H.storeEx e).Legal (.edit (.em m fun x => x.call (.put k H.next))) := by
    refine ⟨Nat.lt_succ_of_lt hm, fun y hy => ?_⟩
    rcases call_mem (op := .put k _) hy with h | h
    · exact Nat.lt_succ_of_lt (hs.closed (.em m) (.ex y.2) (List.mem_map.mpr ⟨y, h, rfl⟩))
    · rw [← Option.mem_some.mp h]; exact Nat.lt_succ_self _
  obtain ⟨t', ht, hv⟩ := edit_examples_exact h1.closed hn hg1 (h1.own _ (get_maps rfl hg1)) hl
    (op' := .put k e) (by simp only [followOp, Heap.storeEx, upd_self, Option.map_some])
  cases ht
  exact hv

/-- Putting a new data type into the map of properties. -/
theorem TypeSim.putType {h : Hdr} {b : Body} {fs : OM String (OM String DT)} {ps : OM String DT}
    {it : Option DT} (hs : TypeSim a H (.ext h b fs ps it)) {m : Addr}
    (hg : H.get a .properties = some (.tm m)) (k : String) (u : DT) :
    TypeSim a (H.putType m k u) (.ext h b fs (ps.put k u) it) := by
  have hm : m < H.next := hs.closed _ _ (maps_points (get_maps rfl hg))
  have hst := storeT_ok u H
  have h1 := hs.extends hst.ext (hst.closed hs.closed)
  obtain ⟨n1, hn1⟩ := h1.val
  obtain ⟨n2, hn2⟩ := hst.val
  have hn := val_mono (Nat.le_max_left n1 n2) hn1
  have hu := val_mono (Nat.le_max_right n1 n2) hn2
  generalize max n1 n2 = n at hn hu
  have hty : H.ty a = (H.storeT u).2.ty a := hst.ext.same (.ty a) hs.lt
  have hg1 : (H.storeT u).2.get a .properties = some (.tm m) := by rw [get_eq hty.symm]; exact hg
  refine hs.grow ((grows_putType hs.closed hm k u).by hs.closed) ?_ ⟨n + 1, ?_⟩
  · have : (H.putType m k u).ty a = H.ty a := hty.symm
    rw [this]; exact .refl _
  have hl : (H.storeT u).2.Legal (.edit (.tm m fun x => x.call (.put k (H.storeT u).1))) := by
    refine ⟨Nat.lt_of_lt_of_le hm hst.ext.next, fun y hy => ?_⟩
    rcases call_mem (op := .put k _) hy with h | h
    · exact h1.closed (.tm m) (.ty y.2) (List.mem_map.mpr ⟨y, h, rfl⟩)
    · rw [← Option.mem_some.mp h]; exact hst.above.self.2
  obtain ⟨t', ht, hv⟩ := edit_properties_exact h1.closed hn hg1 (h1.own _ (get_maps rfl hg1)) hl
    (fun x hx => by
      cases hx
      exact ⟨hst.above.self.2, fun hr => absurd hm (Nat.not_lt.mpr (hst.above _ hr).1)⟩)
    (op' := .put k u) (by simp only [followOp, hu, Option.map_some])
  cases b <;> cases ht
  exact hv

/-- Putting a new map into the map of facets. -/
theorem TypeSim.putFacet {h : Hdr} {b : Body} {fs : OM String (OM String DT)} {ps : OM String DT}
    {it : Option DT} (hs : TypeSim a H (.ext h b fs ps it)) {m : Addr}
    (hg : H.get a .facets = some (.fm m)) (e : String × OM String DT) :
    TypeSim a (H.putFacet m e) (.ext h b (fs.put e.1 e.2) ps it) := by
  have hm : m < H.next := hs.closed _ _ (maps_points (get_maps rfl hg))
  have hst := storeFE_ok e H
  have h1 := hs.extends hst.ext (hst.closed hs.closed)
  obtain ⟨n1, hn1⟩ := h1.val
  obtain ⟨n2, hn2⟩ := hst.val
  have hn := val_mono (Nat.le_max_left n1 n2) hn1
  have hu := mapMono (Nat.le_max_right n1 n2) hn2
  generalize max n1 n2 = n at hn hu
  have hty : H.ty a = (H.storeFE e).2.ty a := hst.ext.same (.ty a) hs.lt
  have hg1 : (H.storeFE e).2.get a .facets = some (.fm m) := by rw [get_eq hty.symm]; exact hg
  refine hs.grow ((grows_putFacet hs.closed hm e).by hs.closed) ?_ ⟨n + 1, ?_⟩
  · have : (H.putFacet m e).ty a = H.ty a := hty.symm
    rw [this]; exact .refl _
  have hl : (H.storeFE e).2.Legal (.edit (.fm m fun x => x.call (.put e.1 (H.storeFE e).1.2))) := by
    refine ⟨Nat.lt_of_lt_of_le hm hst.ext.next, fun y hy => ?_⟩
    rcases call_mem (op := .put e.1 _) hy with h | h
    · exact h1.closed (.fm m) (.tm y.2) (List.mem_map.mpr ⟨y, h, rfl⟩)
    · rw [← Option.mem_some.mp h]; exact hst.above.self.2
  obtain ⟨t', ht, hv⟩ := edit_facets_exact h1.closed hn hg1 (h1.own _ (get_maps rfl hg1)) hl
    (fun x hx => by
      cases hx
      exact ⟨hst.above.self.2, fun hr => absurd hm (Nat.not_lt.mpr (hst.above _ hr).1)⟩)
    (op' := .put e.1 e.2) (by
      have : (H.storeFE e).2.typeMap n (H.storeFE e).1.2 = some e.2 := hu
      simp only [followOp, this, Option.map_some])
  cases ht
  exact hv

/-! ### Maps, entry by entry -/

theorem loadEm_sim (X : Xyml) (kd : Kind) {h : Hdr} {b : Body} {fs : OM String (OM String DT)}
    {ps : OM String DT} {it : Option DT} (hs : TypeSim a H (.ext h b fs ps it)) {m : Addr}
    (hg : H.get a .examples = some (.em m)) (v : Node) :
    LiveSim (TypeSim a) (H.loadEm X kd m v)
      ((liveExamples X kd v h.examples).within fun e => .ext { h with examples := e } b fs ps it) := by
  have := liveMap_sim (R := fun H e => TypeSim a H (.ext { h with examples := e } b fs ps it) ∧
      H.get a .examples = some (.em m))
    (f := fun k v H => store
      ((asString k).bind fun s => ((Example.new kd).unmarshal X v).map fun e => (s, e))
      (fun H e => H.putEx m e.1 e.2) H)
    (g := fun k v m => store
      ((asString k).bind fun s => ((Example.new kd).unmarshal X v).map fun e => (s, e))
      (fun m e => m.put e.1 e.2) m)
    (fun k v H e hr => store_sim hr fun x _ => ⟨hr.1.putEx hr.2 x.1 x.2, hr.2⟩) v ⟨hs, hg⟩
  exact ⟨this.1.1, this.2⟩

theorem loadPm_sim (X : Xyml) {h : Hdr} {b : Body} {fs : OM String (OM String DT)}
    {ps : OM String DT} {it : Option DT} (hs : TypeSim a H (.ext h b fs ps it)) {m : Addr}
    (hg : H.get a .properties = some (.tm m)) (v : Node) :
    LiveSim (TypeSim a) (H.loadPm X m v)
      ((liveProps X v ps).within fun ps' => .ext h b fs ps' it) := by
  have := liveMap_sim (R := fun H e => TypeSim a H (.ext h b fs e it) ∧
      H.get a .properties = some (.tm m))
    (f := fun k v H => store
      ((asString k).bind fun s => (hat X v).bind fun t =>
        if t.isProperty then .ok (s, t) else .panic .notProperty)
      (fun H e => H.putType m e.1 e.2) H)
    (g := fun k v m => store
      ((asString k).bind fun s => (hat X v).bind fun t =>
        if t.isProperty then .ok (s, t) else .panic .notProperty)
      (fun m e => m.put e.1 e.2) m)
    (fun k v H e hr => store_sim hr fun x _ => ⟨hr.1.putType hr.2 x.1 x.2, (get_eq (H' := H.putType m x.1 x.2)
      ((storeT_ok x.2 H).ext.same (.ty a) hr.1.lt).symm _).trans hr.2⟩) v ⟨hs, hg⟩
  exact ⟨this.1.1, this.2⟩

theorem loadFm_sim (X : Xyml) {h : Hdr} {b : Body} {fs : OM String (OM String DT)}
    {ps : OM String DT} {it : Option DT} (hs : TypeSim a H (.ext h b fs ps it)) {m : Addr}
    (hg : H.get a .facets = some (.fm m)) (v : Node) :
    LiveSim (TypeSim a) (H.loadFm X m v)
      ((liveFacets X v fs).within fun fs' => .ext h b fs' ps it) := by
  have := liveMap_sim (R := fun H e => TypeSim a H (.ext h b e ps it) ∧
      H.get a .facets = some (.fm m))
    (f := fun k v H => store
      ((asString k).bind fun s => (loadTypes X v (OM.empty true)).map fun f => (s, f))
      (fun H e => H.putFacet m e) H)
    (g := fun k v m => store
      ((asString k).bind fun s => (loadTypes X v (OM.empty true)).map fun f => (s, f))
      (fun m e => m.put e.1 e.2) m)
    (fun k v H e hr => store_sim hr fun x _ => ⟨hr.1.putFacet hr.2 x, (get_eq (H' := H.putFacet m x)
      ((storeFE_ok x H).ext.same (.ty a) hr.1.lt).symm _).trans hr.2⟩) v ⟨hs, hg⟩
  exact ⟨this.1.1, this.2⟩

/-! ### Fields -/

/-- What stays below a data type whose fields are changed after a step that takes new addresses. -/
theorem setTy_parts {H1 : Heap} (hw : H.Closed) (he : Extends H H1) {n : Nat}
    (hv : H.val n a = some t) {h : Hdr} {p : TypePtrs} {b : Body} {f : Addr} {ps it : Option Addr}
    (hty : H.ty a = .ext h p b f ps it) (o : TypeObj) :
    (H1.setTy a o).hdr h p = H.hdr h p ∧ (H1.setTy a o).facetMap n f = H.facetMap n f ∧
      (H1.setTy a o).propsView ((H1.setTy a o).val n) ps = H.propsView (H.val n) ps ∧
      followOpt ((H1.setTy a o).val n) it = followOpt (H.val n) it := by
  have hq : Only [.ty a] H (H1.setTy a o) := ⟨he.next, fun x hx hx' => ?_⟩
  · exact (kept_below hw hq hv).parts hty n
  rw [List.mem_singleton] at hx'
  have := he.same x hx
  cases x with
  | ty c => exact this.trans (upd_ne _ _ fun e => hx' (by rw [e])).symm
  | _ => exact this

/-- Fields that are no pointers. -/
theorem TypeSim.fields (hs : TypeSim a H t) {h : Hdr} {p : TypePtrs} {b : Body} {f : Addr}
    {ps it : Option Addr} (hty : H.ty a = .ext h p b f ps it) {h' : Hdr} {b' : Body}
    {t' : DT} (ht : ∀ fs ps' it', t = .ext (H.hdr h p) b fs ps' it' →
      t' = .ext (H.hdr h' p) b' fs ps' it') :
    ∃ n, (H.setTy a (.ext h' p b' f ps it)).val n a = some t' := by
  obtain ⟨n, hn⟩ := hs.val
  obtain ⟨fs, ps', it', rfl, hf, hps, hit⟩ := val_parts hn hty
  obtain ⟨e1, e2, e3, e4⟩ := setTy_parts hs.closed (.refl H) hn hty (.ext h' p b' f ps it)
  refine ⟨n + 1, ?_⟩
  rw [parts_val (upd_self _ _ _) (e2.trans hf) (e3.trans hps) (e4.trans hit), ht _ _ _ rfl]
  rfl

theorem TypeSim.newXML (hs : TypeSim a H t) {h : Hdr} {p : TypePtrs} {b : Body} {f : Addr}
    {ps it : Option Addr} (hty : H.ty a = .ext h p b f ps it) (x : XML) {t' : DT}
    (ht : ∀ fs ps' it', t = .ext (H.hdr h p) b fs ps' it' →
      t' = .ext { H.hdr h p with xml := some x } b fs ps' it') :
    ∃ n, ((H.storeXo x).setTy a (.ext h { p with xml := some H.next } b f ps it)).val n a =
      some t' := by
  obtain ⟨n, hn⟩ := hs.val
  obtain ⟨fs, ps', it', rfl, hf, hps, hit⟩ := val_parts hn hty
  obtain ⟨e1, e2, e3, e4⟩ := setTy_parts hs.closed (extends_storeXo H x) hn hty
    (.ext h { p with xml := some H.next } b f ps it)
  refine ⟨n + 1, ?_⟩
  rw [parts_val (upd_self _ _ _) (e2.trans hf) (e3.trans hps) (e4.trans hit), ht _ _ _ rfl, ← e1]
  simp only [Heap.hdr, Heap.setTy, Heap.storeXo, Option.map_some, upd_self]

theorem TypeSim.newExample (hs : TypeSim a H t) {h : Hdr} {p : TypePtrs} {b : Body} {f : Addr}
    {ps it : Option Addr} (hty : H.ty a = .ext h p b f ps it) (x : Example) {t' : DT}
    (ht : ∀ fs ps' it', t = .ext (H.hdr h p) b fs ps' it' →
      t' = .ext { H.hdr h p with «example» := some x } b fs ps' it') :
    ∃ n, ((H.storeEx x).setTy a (.ext h { p with «example» := some H.next } b f ps it)).val n a =
      some t' := by
  obtain ⟨n, hn⟩ := hs.val
  obtain ⟨fs, ps', it', rfl, hf, hps, hit⟩ := val_parts hn hty
  obtain ⟨e1, e2, e3, e4⟩ := setTy_parts hs.closed (extends_storeEx H x) hn hty
    (.ext h { p with «example» := some H.next } b f ps it)
  refine ⟨n + 1, ?_⟩
  rw [parts_val (upd_self _ _ _) (e2.trans hf) (e3.trans hps) (e4.trans hit), ht _ _ _ rfl, ← e1]
  simp only [Heap.hdr, Heap.setTy, Heap.storeEx, Option.map_some, upd_self]

theorem TypeSim.newItems (hs : TypeSim a H t) {h : Hdr} {p : TypePtrs} {b : Body} {f : Addr}
    {ps it : Option Addr} (hty : H.ty a = .ext h p b f ps it) (u : DT) {t' : DT}
    (ht : ∀ fs ps' it', t = .ext (H.hdr h p) b fs ps' it' →
      t' = .ext (H.hdr h p) b fs ps' (some u)) :
    ∃ n, ((H.storeT u).2.setTy a (.ext h p b f ps (some (H.storeT u).1))).val n a = some t' := by
  have hst := storeT_ok u H
  obtain ⟨n1, hn1⟩ := hs.val
  obtain ⟨n2, hn2⟩ := hst.val
  have hn := val_mono (Nat.le_max_left n1 n2) hn1
  have hu := val_mono (Nat.le_max_right n1 n2) hn2
  generalize max n1 n2 = n at hn hu
  obtain ⟨fs, ps', it', rfl, hf, hps, hit⟩ := val_parts hn hty
  obtain ⟨e1, e2, e3, e4⟩ := setTy_parts hs.closed hst.ext hn hty
    (.ext h p b f ps (some (H.storeT u).1))
  have hsame : SameFrom (H.storeT u).2 ((H.storeT u).2.setTy a
      (.ext h p b f ps (some (H.storeT u).1))) (.ty (H.storeT u).1) := fun x hx => by
    have hb := (hst.above x hx).1
    cases x with
    | ty c =>
      refine (upd_ne _ _ fun e => ?_).symm
      subst e
      exact absurd hs.lt (Nat.not_lt.mpr hb)
    | _ => rfl
  refine ⟨n + 1, ?_⟩
  rw [parts_val (upd_self _ _ _) (e2.trans hf) (e3.trans hps) (it' := some u) ?_, ht _ _ _ rfl, e1]
  show ((_ : Heap).val n (H.storeT u).1).map some = _
  rw [← sameFrom_val n hsame, hu]
  rfl

theorem TypeSim.extra (hs : TypeSim a H t) {m : Addr} (hg : H.get a .extra = some (.xm m))
    (k : Scalar) (v : Node) {t' : DT} (ht : t.apply (.editExtra fun x => x.put k v) = some t') :
    ∃ n, (H.putXm m k v).val n a = some t' := by
  obtain ⟨n, hn⟩ := hs.val
  obtain ⟨t2, h2, hv⟩ := edit_extra_exact hs.closed hn hg (hs.own _ (get_maps rfl hg))
    fun x => x.put k v
  cases h2.symm.trans ht
  exact ⟨n + 1, hv⟩

theorem TypeSim.annotations (hs : TypeSim a H t) {m : Addr}
    (hg : H.get a .annotations = some (.am m)) (k : String) (v : Ann) {t' : DT}
    (ht : t.apply (.editAnnotations fun x => x.put k v) = some t') :
    ∃ n, (H.putAm m k v).val n a = some t' := by
  obtain ⟨n, hn⟩ := hs.val
  obtain ⟨t2, h2, hv⟩ := edit_annotations_exact hs.closed hn hg (hs.own _ (get_maps rfl hg))
    fun x => x.put k v
  cases h2.symm.trans ht
  exact ⟨n + 1, hv⟩

end sim

/-! ### One entry -/

theorem store_map {σ α β : Type} (r : Res α) (f : α → β) (g : σ → β → σ) (s : σ) :
    store (r.map f) g s = store r (fun s x => g s (f x)) s := by cases r <;> rfl

/-- Stands for the value. -/
def ValIs (a : Addr) (H : Heap) (t : DT) : Prop := ∃ n, H.val n a = some t

section sim
variable {a : Addr} {H : Heap} {t : DT}

theorem extAssign_sim (X : Xyml) {h : Hdr} {p : TypePtrs} {b : Body} {f : Addr}
    {ps it : Option Addr} {fs : OM String (OM String DT)} {ps' : OM String DT} {it' : Option DT}
    (hs : TypeSim a H (.ext (H.hdr h p) b fs ps' it')) (hty : H.ty a = .ext h p b f ps it)
    (k v : Node) :
    LiveSim (ValIs a) (H.extAssign X a h p b f ps it k v)
      (store ((H.hdr h p).assignExt X k v) (fun _ r => .ext r b fs ps' it')
        (.ext (H.hdr h p) b fs ps' it')) := by
  have hv : ValIs a H (.ext (H.hdr h p) b fs ps' it') := hs.val
  have hbase : LiveSim (ValIs a)
      (H.baseAssign a (fun s => .ext { h with schema := s } p b f ps it) p.extra k v)
      (store ((H.hdr h p).assignBase k v) (fun _ r => .ext r b fs ps' it')
        (.ext (H.hdr h p) b fs ps' it')) := by
    unfold Heap.baseAssign Hdr.assignBase assignBase
    rw [store_map]
    split
    · rw [store_map]
      refine store_sim hv fun s _ => hs.fields hty fun fs1 ps1 it1 e => ?_
      cases e; rfl
    · refine ⟨hs.extra (m := p.extra) (by simp only [Heap.get, hty]) _ _ ?_, rfl⟩
      rfl
  unfold Heap.extAssign Hdr.assignExt
  split
  · rw [store_map]
    refine store_sim hv fun s _ => hs.fields hty fun fs1 ps1 it1 e => ?_
    cases e; rfl
  split
  · rw [store_map]
    refine store_sim hv fun s _ => hs.fields hty fun fs1 ps1 it1 e => ?_
    cases e; rfl
  split
  · rw [store_map]
    refine store_sim hv fun x _ => hs.newXML hty x fun fs1 ps1 it1 e => ?_
    cases e; rfl
  split
  · unfold annIn
    cases firstChar k.value with
    | none => exact ⟨hv, rfl⟩
    | some c =>
      simp only
      split
      · cases loadAnn v with
        | ok x =>
          refine ⟨hs.annotations (m := p.annotations) (by simp only [Heap.get, hty]) _ _ ?_, rfl⟩
          rfl
        | err e => exact ⟨hv, rfl⟩
        | panic c => exact ⟨hv, rfl⟩
      · exact hbase
  · exact hbase

theorem typeAssign_val (X : Xyml) (hs : TypeSim a H t) (k v : Node) :
    LiveSim (ValIs a) (H.typeAssign X a k v) (t.liveAssign X k v) := by
  cases hty : H.ty a with
  | basic i s x =>
    have ht : t = .basic i s (H.xm x) := by
      obtain ⟨n, hn⟩ := hs.val
      cases n with
      | zero => cases hn
      | succ n => simp only [Heap.val, Heap.view, hty] at hn; exact (Option.some.inj hn).symm
    subst ht
    have hv : ValIs a H (.basic i s (H.xm x)) := hs.val
    simp only [Heap.typeAssign, hty, DT.liveAssign, Heap.baseAssign, assignBase]
    split
    · rw [store_map]
      refine store_sim hv fun s _ => ⟨1, ?_⟩
      simp only [Heap.val, Heap.view, Heap.setTy, upd_self]
    · refine ⟨hs.extra (m := x) (by simp only [Heap.get, hty]) _ _ ?_, rfl⟩
      rfl
  | ext h p b f ps it =>
    obtain ⟨fs, ps', it', rfl⟩ : ∃ fs ps' it', t = .ext (H.hdr h p) b fs ps' it' := by
      obtain ⟨n, hn⟩ := hs.val
      obtain ⟨fs, ps', it', ht, _⟩ := val_parts hn hty
      exact ⟨fs, ps', it', ht⟩
    have hv : ValIs a H (.ext (H.hdr h p) b fs ps' it') := hs.val
    have loop : ∀ {x : Live Heap} {y : Live DT}, LiveSim (TypeSim a) x y → LiveSim (ValIs a) x y :=
      fun h => ⟨h.1.val, h.2⟩
    simp only [Heap.typeAssign, hty, DT.liveAssign]
    by_cases hk : k.value = "facets"
    · rw [if_pos hk, if_pos hk]
      exact loop (loadFm_sim X hs (by simp only [Heap.get, hty]) v)
    rw [if_neg hk, if_neg hk]; clear hk
    by_cases hk : k.value = "properties" ∧ b.isObject
    · rw [if_pos hk, if_pos hk]
      have hso := hs.sound
      rw [hty] at hso
      cases b with
      | object o =>
        cases ps with
        | none => exact absurd rfl (hso rfl)
        | some m => exact loop (loadPm_sim X hs (by simp only [Heap.get, hty, Option.map_some]) v)
      | _ => exact absurd hk.2 (by simp [Body.isObject])
    rw [if_neg hk, if_neg hk]; clear hk
    by_cases hk : k.value = "items" ∧ b.isArray
    · rw [if_pos hk, if_pos hk]
      refine store_sim hv fun u _ => hs.newItems hty u fun fs1 ps1 it1 e => ?_
      cases e; rfl
    rw [if_neg hk, if_neg hk]; clear hk
    by_cases he : k.value = "example"
    · rw [if_pos he, if_neg (by rw [he]; decide), if_neg (by rw [he]; decide)]
      have : assignFlat X k v (H.hdr h p) b = (loadExample X b.kind v).map
          fun e => ({ H.hdr h p with «example» := some e }, b) := by
        simp only [assignFlat, Hdr.assignCommon, he, if_true]
        cases loadExample X b.kind v <;> rfl
      rw [this, store_map]
      refine store_sim hv fun x _ => hs.newExample hty x fun fs1 ps1 it1 e => ?_
      cases e; rfl
    rw [if_neg he]
    by_cases hex : k.value = "examples"
    · rw [if_pos hex, if_pos hex]
      exact loop (loadEm_sim X _ hs (by simp only [Heap.get, hty]) v)
    rw [if_neg hex, if_neg hex]
    by_cases hen : k.value = "enum"
    · rw [if_pos hen, if_pos hen]
      refine ⟨hs.fields hty fun fs1 ps1 it1 e => ?_, rfl⟩
      cases e; rfl
    rw [if_neg hen, if_neg hen]
    by_cases hr : k.value = "required"
    · rw [if_pos hr]
      have : assignFlat X k v (H.hdr h p) b = (asBool X v).map
          fun e => ({ H.hdr h p with required := e }, b) := by
        simp only [assignFlat, Hdr.assignCommon, if_neg he, if_neg hex, if_neg hen, if_pos hr]
        cases asBool X v <;> rfl
      rw [this, store_map]
      refine store_sim hv fun x _ => hs.fields hty fun fs1 ps1 it1 e => ?_
      cases e; rfl
    rw [if_neg hr]
    have hc : (H.hdr h p).assignCommon X b.kind k.value v = none := by
      simp only [Hdr.assignCommon, if_neg he, if_neg hex, if_neg hen, if_neg hr]
    simp only [assignFlat, hc]
    cases b.assign X k.value v with
    | some r =>
      simp only [store_map]
      refine store_sim hv fun x _ => hs.fields hty fun fs1 ps1 it1 e => ?_
      cases e; rfl
    | none =>
      simp only [store_map]
      exact extAssign_sim X hs hty k v

theorem typeAssign_sim (X : Xyml) (k v : Node) (hs : TypeSim a H t) :
    LiveSim (TypeSim a) (H.typeAssign X a k v) (t.liveAssign X k v) := by
  have h := typeAssign_val X hs k v
  exact ⟨hs.grow (growsBy_typeAssign X hs.closed hs.lt k v)
    (loads_typeAssign X hs.lt (List.mem_singleton.mpr rfl) v).kept h.1, h.2⟩

/-- Loading into the object loads into its value. -/
theorem typeLoad_sim (X : Xyml) (v : Node) (hs : TypeSim a H t) :
    LiveSim (TypeSim a) (H.typeLoad X a v) (t.load X v) := by
  have hg := growsBy_typeLoad X v hs.closed hs.lt
  have hl := loads_typeLoad X a v H hs.lt
  revert hg hl
  unfold Heap.typeLoad DT.load
  split
  · intro hg hl
    refine ⟨hs.grow hg hl.kept ?_, rfl⟩
    cases hty : H.ty a with
    | basic i s x =>
      have ht : t = .basic i s (H.xm x) := by
        obtain ⟨n, hn⟩ := hs.val
        cases n with
        | zero => cases hn
        | succ n => simp only [Heap.val, Heap.view, hty] at hn; exact (Option.some.inj hn).symm
      subst ht
      refine ⟨1, ?_⟩
      simp only [Heap.val, Heap.view, Heap.setTy, upd_self]
      rfl
    | ext h p b f ps it =>
      refine hs.fields hty fun fs1 ps1 it1 e => ?_
      cases e; rfl
  · intro _ _
    cases v with
    | map ps => exact livePairs_sim (fun k v H t hr => typeAssign_sim X k v hr) ps hs
    | scalar a b => exact ⟨hs, rfl⟩
    | seq a b => exact ⟨hs, rfl⟩

end sim

end Verif.Doc
