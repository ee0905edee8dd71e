import Verif.Doc.HeapTree
import Verif.Doc.HeapDocsRun

/-! # Lemmas: trees stay trees -/

namespace Verif.Doc
open Relation

/-- What was there links to new objects only, and trees stay trees. -/
structure Sprouts (H H' : Heap) : Prop where
  by_ : GrowsBy H H'
  tree : ∀ o, o.addr < H.next → H.Tree o → H'.Tree o

theorem Sprouts.refl {H : Heap} (hw : H.Closed) : Sprouts H H := ⟨.refl hw, fun _ _ h => h⟩

theorem Sprouts.trans {H H' H'' : Heap} (h : Sprouts H H') (h' : Sprouts H' H'') :
    Sprouts H H'' :=
  ⟨h.by_.trans h'.by_, fun o ho ht =>
    h'.tree o (Nat.lt_of_lt_of_le ho h.by_.next) (h.tree o ho ht)⟩

theorem Plants.sprouts {p : Obj} {H H' : Heap} (h : Plants p H H') (hw : H.Closed) : Sprouts H H' :=
  ⟨h.grows.by hw, fun _ ho ht => h.keeps hw ho ht⟩

section
variable {H H' : Heap}

theorem sprouts_refs (hw : H.Closed) (hn : H'.next = H.next) (h : ∀ o, H'.refs o = H.refs o) :
    Sprouts H H' := by
  have hp : ∀ {x y}, H'.Points x y ↔ H.Points x y := fun {x y} => by
    rw [Heap.Points, Heap.Points, h]
  have hr : ∀ {x y}, H'.Reaches x y → H.Reaches x y := fun hxy =>
    hxy.lift id fun _ _ q => hp.mp q
  refine ⟨growsBy_refs hw hn h, fun o _ ht => ⟨fun x hx q => ht.root x (hr hx) (hp.mp q),
    fun x x' y hx hx' q q' => ht.uniq x x' y (hr hx) (hr hx') (hp.mp q) (hp.mp q'), fun x hx => ?_⟩⟩
  rw [h]
  exact ht.nodup x (hr hx)

theorem sprouts_ext (hw : H.Closed) (hc : H'.Closed) (he : Extends H H') : Sprouts H H' :=
  ⟨(grows_ext (p := .ty 0) hc he).by hw,
    fun _ ho ht => sameFrom_tree (extends_sameFrom hw he ho) ht⟩

/-- One object gets pointers to new leaves. -/
theorem plants_leaf {p : Obj} (hw : H.Closed) (hq : Quiet [p] H H')
    (hn : H.Tree p → (H'.refs p).Nodup)
    (h : ∀ y, H'.Points p y → H.Points p y ∨ H.next ≤ y.addr ∧ H'.refs y = []) :
    Plants p H H' := by
  have leaf : ∀ y, H'.Points p y → H'.Above H.next y → H'.refs y = [] := fun y hy ha => by
    rcases h y hy with h1 | h1
    · exact absurd (hw _ _ h1) (Nat.not_lt.mpr ha.self.1)
    · exact h1.2
  refine ⟨grows_of_quiet hw hq h, fun x hx hxp => ?_, hn, fun y hy ha => tree_leaf (leaf y hy ha),
    fun y y' hy hy' hne ha ha' x hx hx' => ?_⟩
  · exact (same_refs (hq.only.same x hx (by simpa using hxp))).symm
  · exact hne ((leaf_reaches (leaf y hy ha) hx).symm.trans (leaf_reaches (leaf y' hy' ha') hx'))

/-- One object gets a pointer to a new tree. -/
theorem plants_one {H1 : Heap} {p y0 : Obj} (hw : H.Closed) (he : Extends H H1) (hc : H'.Closed)
    (hq : Only [p] H1 H') (hp : p.addr < H.next) (hy : H1.Above H.next y0) (ht : H1.Tree y0)
    (hn : H.Tree p → (H'.refs p).Nodup)
    (h : ∀ y, H'.Points p y → H.Points p y ∨ y = y0) : Plants p H H' := by
  have hg : Grows p H H' := grows_alloc he hc hq hp fun y hpy => 
    (h y hpy).imp id fun (e : y = y0) => e ▸ hy
  have hs : SameFrom H1 H' y0 := fun z hz => hq.same z (hy z hz).2 fun hm => by
    rw [List.mem_singleton.mp hm] at hz
    exact absurd hp (Nat.not_lt.mpr (hy _ hz).1)
  have hone : ∀ y, H'.Points p y → H'.Above H.next y → y = y0 := fun y hpy ha => by
    rcases h y hpy with h1 | h1
    · exact absurd (hw _ _ h1) (Nat.not_lt.mpr ha.self.1)
    · exact h1
  refine ⟨hg, fun x hx hxp => ?_, hn, fun y hpy ha => ?_, fun y y' hpy hpy' hne ha ha' => ?_⟩
  · rw [same_refs (he.same x hx),
      same_refs (hq.same x (Nat.lt_of_lt_of_le hx he.next) (by simpa using hxp))]
  · rw [hone y hpy ha]
    exact sameFrom_tree hs ht
  · exact absurd ((hone y hpy ha).trans (hone y' hpy' ha').symm) hne

theorem nodup_ty (H : Heap) (a : Addr) : (H.refs (.ty a)).Nodup := by
  cases h : H.ty a with
  | basic i s x => simp [Heap.refs, h]
  | ext c p b f ps it =>
    simp only [Heap.refs, h]
    cases p.xml <;> cases p.example <;> cases ps <;> cases it <;> simp

theorem nodup_put {mk : Addr → Obj} {m : OM String Addr} {k : String} {x : Addr}
    (h : (m.ents.map fun e => mk e.2).Nodup) (hx : ∀ e ∈ m.ents, mk e.2 ≠ mk x) :
    ((m.put k x).ents.map fun e => mk e.2).Nodup := by
  simp only [OM.put, List.map_append, List.map_cons, List.map_nil]
  refine List.Nodup.append (h.sublist (List.filter_sublist.map _)) (List.nodup_singleton _) ?_
  intro y hy hy'
  rw [List.mem_singleton] at hy'
  subst hy'
  obtain ⟨e, he, q⟩ := List.mem_map.mp hy
  exact hx e (List.mem_of_mem_filter he) q

theorem plants_putType (hw : H.Closed) {m : Addr} (hm : m < H.next) (k : String) (t : DT) :
    Plants (.tm m) H (H.putType m k t) := by
  have h := storeT_ok t H
  have hsm : H.tm m = (H.storeT t).2.tm m := h.ext.same (.tm m) hm
  refine plants_one hw h.ext ((quiet_putType H m k t).closed hw)
    ⟨Nat.le_refl _, fun x _ hx => ?_⟩ hm h.above (storeT_tree t H) (fun ht => ?_) fun y hp => ?_
  · cases x with
    | tm a => exact (upd_ne _ _ fun e => hx (by simp [e])).symm
    | _ => rfl
  · have hn : ((H.tm m).ents.map fun e => Obj.ty e.2).Nodup := ht.nodup _ .refl
    simp only [Heap.refs, Heap.putType, upd_self, ← hsm]
    refine nodup_put hn fun e he q => ?_
    have := hw (.tm m) (.ty e.2) (reaches_entry he)
    rw [q] at this
    exact absurd this (Nat.not_lt.mpr h.above.self.1)
  · simp only [Heap.Points, Heap.refs, Heap.putType, upd_self, List.mem_map] at hp
    obtain ⟨e, he, rfl⟩ := hp
    rcases mem_put he with he | rfl
    · rw [← hsm] at he
      exact Or.inl (reaches_entry he)
    · exact Or.inr rfl

theorem plants_putFacet (hw : H.Closed) {m : Addr} (hm : m < H.next)
    (e : String × OM String DT) : Plants (.fm m) H (H.putFacet m e) := by
  have h := storeFE_ok e H
  have hsm : H.fm m = (H.storeFE e).2.fm m := h.ext.same (.fm m) hm
  refine plants_one hw h.ext ((quiet_putFacet H m e).closed hw)
    ⟨Nat.le_refl _, fun x _ hx => ?_⟩ hm h.above (storeFE_tree e H) (fun ht => ?_) fun y hp => ?_
  · cases x with
    | fm a => exact (upd_ne _ _ fun e => hx (by simp [e])).symm
    | _ => rfl
  · have hn : ((H.fm m).ents.map fun e => Obj.tm e.2).Nodup := ht.nodup _ .refl
    simp only [Heap.refs, Heap.putFacet, upd_self, ← hsm]
    refine nodup_put hn fun x hx q => ?_
    have := hw (.fm m) (.tm x.2) (List.mem_map_of_mem (f := fun e : String × Addr => Obj.tm e.2) hx)
    rw [q] at this
    exact absurd this (Nat.not_lt.mpr h.above.self.1)
  · simp only [Heap.Points, Heap.refs, Heap.putFacet, upd_self, List.mem_map] at hp
    obtain ⟨x, hx, rfl⟩ := hp
    rcases mem_put hx with hx | rfl
    · rw [← hsm] at hx
      exact Or.inl (List.mem_map_of_mem (f := fun e : String × Addr => Obj.tm e.2) hx)
    · exact Or.inr rfl

theorem plants_putEx (hw : H.Closed) (m : Addr) (k : String) (e : Example) :
    Plants (.em m) H (H.putEx m k e) := by
  refine plants_leaf hw (quiet_putEx H m k e) (fun ht => ?_) fun y hp => ?_
  · have hn : ((H.em m).ents.map fun e => Obj.ex e.2).Nodup := ht.nodup _ .refl
    simp only [Heap.refs, Heap.putEx, upd_self]
    refine nodup_put hn fun x hx q => ?_
    have := hw (.em m) (.ex x.2) (List.mem_map_of_mem (f := fun e : String × Addr => Obj.ex e.2) hx)
    rw [q] at this
    exact absurd this (Nat.lt_irrefl _)
  · simp only [Heap.Points, Heap.refs, Heap.putEx, upd_self, List.mem_map] at hp
    obtain ⟨x, hx, rfl⟩ := hp
    rcases mem_put hx with hx | rfl
    · exact Or.inl (List.mem_map_of_mem (f := fun e : String × Addr => Obj.ex e.2) hx)
    · exact Or.inr ⟨Nat.le_refl _, rfl⟩

/-- Loading into one map. -/
theorem sprouts_liveMap {p : Obj} {α : Type} {r : Node → Node → Res α} {put : Heap → α → Heap}
    (hput : ∀ H x, H.Closed → p.addr < H.next → Sprouts H (put H x)) (v : Node)
    (hw : H.Closed) (hp : p.addr < H.next) :
    Sprouts H (liveMap (fun k v H => store (r k v) put H) v H).1 := by
  refine liveMap_inv (R := fun H H' => H.Closed → p.addr < H.next → Sprouts H H')
    (fun H hw _ => .refl hw)
    (fun h h' hw hm => (h hw hm).trans
      (h' (h hw hm).by_.closed (Nat.lt_of_lt_of_le hm (h hw hm).by_.next))) (fun k v H => ?_) v H hw hp
  exact store_inv (R := fun H H' => H.Closed → p.addr < H.next → Sprouts H H')
    (fun H hw _ => .refl hw) _ (fun H e hw hm => hput H e hw hm) H

theorem sprouts_loadTm (X : Xyml) {m : Addr} (v : Node) (hw : H.Closed) (hm : m < H.next) :
    Sprouts H (H.loadTm X m v).1 :=
  sprouts_liveMap (p := .tm m) (put := fun H (e : String × DT) => H.putType m e.1 e.2)
    (fun _ e hw hm => (plants_putType hw hm e.1 e.2).sprouts hw) v hw hm

theorem sprouts_loadEm (X : Xyml) (kd : Kind) {m : Addr} (v : Node) (hw : H.Closed)
    (hm : m < H.next) : Sprouts H (H.loadEm X kd m v).1 :=
  sprouts_liveMap (p := .em m) (put := fun H (e : String × Example) => H.putEx m e.1 e.2)
    (fun _ e hw _ => (plants_putEx hw m e.1 e.2).sprouts hw) v hw hm

theorem sprouts_loadPm (X : Xyml) {m : Addr} (v : Node) (hw : H.Closed) (hm : m < H.next) :
    Sprouts H (H.loadPm X m v).1 :=
  sprouts_liveMap (p := .tm m) (put := fun H (e : String × DT) => H.putType m e.1 e.2)
    (fun _ e hw hm => (plants_putType hw hm e.1 e.2).sprouts hw) v hw hm

theorem sprouts_loadFm (X : Xyml) {m : Addr} (v : Node) (hw : H.Closed) (hm : m < H.next) :
    Sprouts H (H.loadFm X m v).1 :=
  sprouts_liveMap (p := .fm m) (put := fun H (e : String × OM String DT) => H.putFacet m e)
    (fun _ e hw hm => (plants_putFacet hw hm e).sprouts hw) v hw hm

theorem sprouts_apiLoad (X : Xyml) (d : Addr) (v : Node) (hw : H.Closed) :
    Sprouts H (H.apiLoad X d v).1 := by
  have : ∀ m, (H.Closed → (H.api d).types = m → Sprouts H (H.apiLoad X d v).1 ∧
      ((H.apiLoad X d v).1.api d).types = m) := by
    intro m
    unfold Heap.apiLoad
    refine liveMap_inv (R := fun H H' => H.Closed → (H.api d).types = m → Sprouts H H' ∧
      (H'.api d).types = m) (fun H hw hm => ⟨.refl hw, hm⟩)
      (fun h h' hw hm => ⟨(h hw hm).1.trans (h' (h hw hm).1.by_.closed (h hw hm).2).1,
        (h' (h hw hm).1.by_.closed (h hw hm).2).2⟩) (fun k v H hw hm => ⟨?_, ?_⟩) v H
    · rcases apiAssign_or X d k v H with h | h
      · exact sprouts_refs hw h.2.1 h.2.2
      · rw [h, hm]
        exact sprouts_loadTm X v hw (hm ▸ hw _ _ (api_points H d))
    · obtain ⟨w, h⟩ := (quietApi_assign X d k v H).ptrs
      rw [h]; exact hm
  exact (this _ hw rfl).1

theorem sprouts_libLoad (X : Xyml) (d : Addr) (v : Node) (hw : H.Closed) :
    Sprouts H (H.libLoad X d v).1 := by
  have : ∀ m, (H.Closed → (H.lib d).types = m → Sprouts H (H.libLoad X d v).1 ∧
      ((H.libLoad X d v).1.lib d).types = m) := by
    intro m
    unfold Heap.libLoad
    refine liveMap_inv (R := fun H H' => H.Closed → (H.lib d).types = m → Sprouts H H' ∧
      (H'.lib d).types = m) (fun H hw hm => ⟨.refl hw, hm⟩)
      (fun h h' hw hm => ⟨(h hw hm).1.trans (h' (h hw hm).1.by_.closed (h hw hm).2).1,
        (h' (h hw hm).1.by_.closed (h hw hm).2).2⟩) (fun k v H hw hm => ⟨?_, ?_⟩) v H
    · rcases libAssign_or X d k v H with h | h
      · exact sprouts_refs hw h.2.1 h.2.2
      · rw [h, hm]
        exact sprouts_loadTm X v hw (hm ▸ hw _ _ (lib_points H d))
    · obtain ⟨w, h⟩ := (quietLib_assign X d k v H).ptrs
      rw [h]; exact hm
  exact (this _ hw rfl).1

/-! ### Loading into a data type -/

variable {a : Addr}

theorem sprouts_setTy {H1 : Heap} {o : TypeObj} (hw : H.Closed) (he : Extends H H1)
    (hc : (H1.setTy a o).Closed) (ha : a < H.next) {y0 : Obj} (hy : H1.Above H.next y0)
    (ht : H1.Tree y0)
    (h : ∀ y, (H1.setTy a o).Points (.ty a) y → H.Points (.ty a) y ∨ y = y0) :
    Sprouts H (H1.setTy a o) := by
  refine (plants_one (p := .ty a) hw he hc ⟨Nat.le_refl _, fun x _ hx => ?_⟩ ha hy ht (fun _ => nodup_ty _ _)
    h).sprouts hw
  cases x with
  | ty b => exact (upd_ne _ _ fun e => hx (by simp [e])).symm
  | _ => rfl

theorem sprouts_fields {h h' : Hdr} {p : TypePtrs} {b b' : Body} {f : Addr} {ps it : Option Addr}
    (hw : H.Closed) (hty : H.ty a = .ext h p b f ps it) :
    Sprouts H (H.setTy a (.ext h' p b' f ps it)) := by
  refine sprouts_refs hw rfl fun o => ?_
  cases o with
  | ty c =>
    by_cases hc : c = a
    · subst hc; simp only [Heap.refs, Heap.setTy, upd_self, hty]
    · simp only [Heap.refs, Heap.setTy, upd_ne _ _ hc]
  | _ => rfl

theorem sprouts_base {set : String → TypeObj} {x : Addr} (hw : H.Closed)
    (hs : ∀ s, Sprouts H (H.setTy a (set s))) (k v : Node) :
    Sprouts H (H.baseAssign a set x k v).1 := by
  unfold Heap.baseAssign
  split
  · cases asString v with
    | ok s => exact hs s
    | err e => exact .refl hw
    | panic c => exact .refl hw
  · exact sprouts_refs hw rfl fun o => by cases o <;> rfl

theorem sprouts_extAssign (X : Xyml) {h : Hdr} {p : TypePtrs} {b : Body} {f : Addr}
    {ps it : Option Addr} (hw : H.Closed) (ha : a < H.next) (hty : H.ty a = .ext h p b f ps it)
    (k v : Node) : Sprouts H (H.extAssign X a h p b f ps it k v).1 := by
  have hc := (loads_extAssign (k := k) X ha hty (List.mem_singleton.mpr rfl) v).quiet.closed hw
  have hbase := sprouts_base (set := fun s => .ext { h with schema := s } p b f ps it)
    (x := p.extra) hw (fun s => sprouts_fields hw hty) k v
  have hs : ∀ (r : Res String) (g : String → Hdr), Sprouts H
      (store r (fun H s => H.setTy a (.ext (g s) p b f ps it)) H).1 := fun r g => by
    cases r with
    | ok s => exact sprouts_fields hw hty
    | err e => exact .refl hw
    | panic c => exact .refl hw
  revert hc
  unfold Heap.extAssign
  by_cases hk : k.value = "displayName"
  · rw [if_pos hk]; exact fun _ => hs _ fun s => { h with displayName := some s }
  rw [if_neg hk]; clear hk
  by_cases hk : k.value = "description"
  · rw [if_pos hk]; exact fun _ => hs _ fun s => { h with description := some s }
  rw [if_neg hk]; clear hk
  by_cases hk : k.value = "xml"
  · rw [if_pos hk]
    cases Doc.loadXML X v with
    | ok x =>
      refine fun hc => sprouts_setTy hw (extends_storeXo H x) hc ha (above_xo H x) (tree_leaf rfl)
        fun y hy => ?_
      rw [mem_refs_ext (upd_self _ _ _)] at hy
      rw [mem_refs_ext hty]
      rcases hy with (((hy | ⟨_, hx, rfl⟩) | hy) | hy) | hy
      · exact Or.inl (Or.inl (Or.inl (Or.inl (Or.inl hy))))
      · rw [← Option.some.inj hx]; exact Or.inr rfl
      · exact Or.inl (Or.inl (Or.inl (Or.inr hy)))
      · exact Or.inl (Or.inl (Or.inr hy))
      · exact Or.inl (Or.inr hy)
    | err e => exact fun _ => .refl hw
    | panic c => exact fun _ => .refl hw
  rw [if_neg hk]; clear hk
  intro _
  split
  · split
    · exact .refl hw
    · split
      · cases loadAnn v with
        | ok x => exact sprouts_refs hw rfl fun o => by cases o <;> rfl
        | err e => exact .refl hw
        | panic c => exact .refl hw
      · exact hbase
  · exact hbase

theorem sprouts_basic {i j : Bool} {s s' : String} {x : Addr} (hw : H.Closed)
    (hty : H.ty a = .basic i s x) : Sprouts H (H.setTy a (.basic j s' x)) := by
  refine sprouts_refs hw rfl fun o => ?_
  cases o with
  | ty b =>
    by_cases hb : b = a
    · subst hb; simp only [Heap.refs, Heap.setTy, upd_self, hty]
    · simp only [Heap.refs, Heap.setTy, upd_ne _ _ hb]
  | _ => rfl

theorem sprouts_newItems {h : Hdr} {p : TypePtrs} {b : Body} {f : Addr} {ps it : Option Addr}
    (hw : H.Closed) (ha : a < H.next) (hty : H.ty a = .ext h p b f ps it) (t : DT)
    (hc : ((H.storeT t).2.setTy a (.ext h p b f ps (some (H.storeT t).1))).Closed) :
    Sprouts H ((H.storeT t).2.setTy a (.ext h p b f ps (some (H.storeT t).1))) := by
  have hst := storeT_ok t H
  refine sprouts_setTy hw hst.ext hc ha hst.above (storeT_tree t H) fun y hy => ?_
  rw [mem_refs_ext (upd_self _ _ _)] at hy
  rw [mem_refs_ext hty]
  rcases hy with hy | ⟨_, hx, rfl⟩
  · exact Or.inl (Or.inl hy)
  · rw [← Option.some.inj hx]; exact Or.inr rfl

theorem sprouts_newExample {h : Hdr} {p : TypePtrs} {b : Body} {f : Addr} {ps it : Option Addr}
    (hw : H.Closed) (ha : a < H.next) (hty : H.ty a = .ext h p b f ps it) (e : Example)
    (hc : ((H.storeEx e).setTy a (.ext h { p with «example» := some H.next } b f ps it)).Closed) :
    Sprouts H ((H.storeEx e).setTy a (.ext h { p with «example» := some H.next } b f ps it)) := by
  refine sprouts_setTy hw (extends_storeEx H e) hc ha (above_ex H e) (tree_leaf rfl) fun y hy => ?_
  rw [mem_refs_ext (upd_self _ _ _)] at hy
  rw [mem_refs_ext hty]
  rcases hy with ((hy | ⟨_, hx, rfl⟩) | hy) | hy
  · exact Or.inl (Or.inl (Or.inl (Or.inl hy)))
  · rw [← Option.some.inj hx]; exact Or.inr rfl
  · exact Or.inl (Or.inl (Or.inr hy))
  · exact Or.inl (Or.inr hy)

theorem sprouts_typeAssign (X : Xyml) (hw : H.Closed) (ha : a < H.next) (k v : Node) :
    Sprouts H (H.typeAssign X a k v).1 := by
  have hc := (loads_typeAssign (k := k) X ha (List.mem_singleton.mpr rfl) v).quiet.closed hw
  revert hc
  unfold Heap.typeAssign
  cases hty : H.ty a with
  | basic i s x => exact fun _ => sprouts_base hw (fun s' => sprouts_basic hw hty) k v
  | ext h p b f ps it =>
    have hm : ∀ y, y ∈ H.maps a → y.addr < H.next := fun y hy => hw (.ty a) y (maps_points hy)
    have hf : .fm f ∈ H.maps a := by simp [Heap.maps, hty]
    have he : .em p.examples ∈ H.maps a := by simp [Heap.maps, hty]
    dsimp only
    by_cases hk : k.value = "facets"
    · rw [if_pos hk]
      exact fun _ => sprouts_loadFm X v hw (hm _ hf)
    rw [if_neg hk]; clear hk
    by_cases hk : k.value = "properties" ∧ b.isObject
    · rw [if_pos hk]
      cases ps with
      | none => exact fun _ => .refl hw
      | some m =>
        have hp : .tm m ∈ H.maps a := by simp [Heap.maps, hty]
        exact fun _ => sprouts_loadPm X v hw (hm _ hp)
    rw [if_neg hk]; clear hk
    by_cases hk : k.value = "items" ∧ b.isArray
    · rw [if_pos hk]
      cases hat X v with
      | ok t => exact fun hc => sprouts_newItems hw ha hty t hc
      | err e => exact fun _ => .refl hw
      | panic c => exact fun _ => .refl hw
    rw [if_neg hk]; clear hk
    by_cases hk : k.value = "example"
    · rw [if_pos hk]
      cases loadExample X b.kind v with
      | ok e => exact fun hc => sprouts_newExample hw ha hty e hc
      | err e => exact fun _ => .refl hw
      | panic c => exact fun _ => .refl hw
    rw [if_neg hk]; clear hk
    by_cases hk : k.value = "examples"
    · rw [if_pos hk]
      exact fun _ => sprouts_loadEm X b.kind v hw (hm _ he)
    rw [if_neg hk]; clear hk
    by_cases hk : k.value = "enum"
    · rw [if_pos hk]; exact fun _ => sprouts_fields hw hty
    rw [if_neg hk]; clear hk
    by_cases hk : k.value = "required"
    · rw [if_pos hk]
      cases asBool X v with
      | ok r => exact fun _ => sprouts_fields hw hty
      | err e => exact fun _ => .refl hw
      | panic c => exact fun _ => .refl hw
    rw [if_neg hk]; clear hk
    intro _
    cases hb : b.assign X k.value v with
    | none => exact sprouts_extAssign X hw ha hty k v
    | some r =>
      cases r with
      | ok b' => exact sprouts_fields hw hty
      | err e => exact .refl hw
      | panic c => exact .refl hw

theorem sprouts_typeLoad (X : Xyml) (v : Node) (hw : H.Closed) (ha : a < H.next) :
    Sprouts H (H.typeLoad X a v).1 := by
  unfold Heap.typeLoad
  split
  · cases hty : H.ty a with
    | basic i s x => exact sprouts_basic hw hty
    | ext h p b f ps it => exact sprouts_fields hw hty
  · cases v with
    | scalar t s => exact .refl hw
    | seq t l => exact .refl hw
    | map ps =>
      exact live_inv (R := fun H H' => H.Closed → a < H.next → Sprouts H H')
        (fun H hw _ => .refl hw)
        (fun h h' hw ha => (h hw ha).trans
          (h' (h hw ha).by_.closed (Nat.lt_of_lt_of_le ha (h hw ha).by_.next)))
        (fun k v H hw ha => sprouts_typeAssign X hw ha k v) ps H hw ha

/-! ### Setters -/

theorem sprouts_plain {op : TypeOp} (hw : H.Closed)
    (h : H.typeCall a (.plain op) = some H') : Sprouts H H' := by
  simp only [Heap.typeCall] at h
  split at h
  · cases ho : (H.ty a).apply op with
    | none => rw [ho] at h; cases h
    | some o => rw [ho] at h; cases h; exact sprouts_refs hw rfl (refs_plain ho)
  · cases h

theorem sprouts_unset {op : PtrOp} (hw : H.Closed) (hl : H.Legal (.onType a (.ptr op)))
    (hk : H.Keeps (.onType a (.ptr op))) (h : H.setPtr a op = some H') : Sprouts H H' :=
  (plants_leaf hw (quiet_setPtr hl h) (fun _ => nodup_ty _ _) (points_setPtr hk h)).sprouts hw

theorem Heap.Tree.own {x : Holder} (h : H.Tree x.obj) : H.Own x :=
  ⟨h.nodup _ .refl, fun _ hs => h.owned hs⟩

theorem sprouts_unsetApi {d : Addr} {op : ApiPtrOp} (hw : H.Closed) (hl : H.Legal (.setApi d op))
    (hk : H.Keeps (.setApi d op)) : Sprouts H (H.setApi d op) :=
  (plants_leaf hw (quiet_setApi hl)
    (fun ht => (own_unsetApi hw (Heap.Tree.own (x := .api d) ht) hk).1)
    (points_setApi hk)).sprouts hw

theorem sprouts_unsetLib {d : Addr} {op : LibPtrOp} (hw : H.Closed) (hl : H.Legal (.setLib d op))
    (hk : H.Keeps (.setLib d op)) : Sprouts H (H.setLib d op) :=
  (plants_leaf hw (quiet_setLib hl)
    (fun ht => (own_unsetLib hw (Heap.Tree.own (x := .lib d) ht) hk).1)
    (points_setLib hk)).sprouts hw

/-- A map loses entries. -/
theorem sprouts_drop {p : Obj} (hw : H.Closed) (hq : Quiet [p] H H')
    (hs : (H'.refs p).Sublist (H.refs p)) : Sprouts H H' :=
  (plants_leaf hw hq (fun ht => (ht.nodup _ .refl).sublist hs)
    fun _ hy => Or.inl (hs.subset hy)).sprouts hw

end

end Verif.Doc
