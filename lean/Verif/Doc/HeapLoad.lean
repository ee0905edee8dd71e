import Verif.Doc.HeapAct
import Verif.Doc.HeapExactSpec
import Verif.Doc.TypeLemmas

/-! # What loading into a data type changes -/

namespace Verif.Doc
open Relation

/-- Changing the pointers of a data type, after a step that takes new addresses. -/
theorem quiet_retype {H H1 : Heap} {a : Addr} {o : TypeObj} (h : Quiet [.ty a] H H1)
    (hr : H.Closed →
      ∀ o' ∈ Heap.refs { H1 with ty := upd H1.ty a o } (.ty a), o'.addr < H1.next) :
    Quiet [.ty a] H { H1 with ty := upd H1.ty a o } := by
  refine ⟨h.only.trans ⟨Nat.le_refl _, fun x _ hx => ?_⟩,
    fun hw => closed_of (h.closed hw) (Nat.le_refl _) fun x => ?_⟩
  · cases x with
    | ty b => exact (upd_ne _ _ fun e => hx (by simp [e])).symm
    | _ => rfl
  · cases x with
    | ty b =>
      by_cases hb : b = a
      · subst hb; exact Or.inr (hr hw)
      · exact Or.inl (by simp only [Heap.refs, upd_ne _ _ hb])
    | _ => exact Or.inl rfl

/-- The bounds on the pointers of an extended data type. -/
theorem closed_ext {H : Heap} (hw : H.Closed) {a : Addr} {h : Hdr} {p : TypePtrs} {b : Body}
    {f : Addr} {ps it : Option Addr} (hty : H.ty a = .ext h p b f ps it) :
    p.extra < H.next ∧ p.annotations < H.next ∧ p.examples < H.next ∧ f < H.next ∧
      (∀ x, p.xml = some x → x < H.next) ∧ (∀ x, p.example = some x → x < H.next) ∧
      (∀ x, ps = some x → x < H.next) ∧ ∀ x, it = some x → x < H.next := by
  have hr : ∀ o ∈ H.refs (.ty a), o.addr < H.next := fun o ho => hw _ o ho
  simp only [Heap.refs, hty] at hr
  refine ⟨hr (.xm p.extra) (by simp), hr (.am p.annotations) (by simp),
    hr (.em p.examples) (by simp), hr (.fm f) (by simp), fun x hx => hr (.xo x) (by simp [hx]),
    fun x hx => hr (.ex x) (by simp [hx]), fun x hx => hr (.tm x) (by simp [hx]),
    fun x hx => hr (.ty x) (by simp [hx])⟩

/-- The other way round. -/
theorem ext_bound {H : Heap} {n : Nat} {a : Addr} {h : Hdr} {p : TypePtrs} {b : Body} {f : Addr}
    {ps it : Option Addr} (hty : H.ty a = .ext h p b f ps it)
    (hb : p.extra < n ∧ p.annotations < n ∧ p.examples < n ∧ f < n ∧
      (∀ x, p.xml = some x → x < n) ∧ (∀ x, p.example = some x → x < n) ∧
      (∀ x, ps = some x → x < n) ∧ ∀ x, it = some x → x < n) :
    ∀ o ∈ H.refs (.ty a), o.addr < n := by
  obtain ⟨h1, h2, h3, h4, h5, h6, h7, h8⟩ := hb
  intro o ho
  simp only [Heap.refs, hty, List.mem_append, List.mem_cons, List.mem_map, List.not_mem_nil,
    or_false, Option.mem_toList] at ho
  rcases ho with ((((rfl | rfl | rfl | rfl) | ⟨x, hx, rfl⟩) | ⟨x, hx, rfl⟩) | ⟨x, hx, rfl⟩) |
    ⟨x, hx, rfl⟩
  · exact h1
  · exact h2
  · exact h3
  · exact h4
  · exact h5 x hx
  · exact h6 x hx
  · exact h7 x hx
  · exact h8 x hx

/-! ### New objects -/

theorem storeFL_one (e : String × OM String DT) (H : Heap) :
    H.storeFL [e] = ([(H.storeFE e).1], (H.storeFE e).2) := by
  simp only [Heap.storeFL]

/-- A new map of data types. -/
structure StoredF (H : Heap) (e : String × OM String DT) (r : (String × Addr) × Heap) : Prop where
  ext : Extends H r.2
  above : r.2.Above H.next (.tm r.1.2)
  val : ∃ n, followMap (r.2.val n) (r.2.tm r.1.2) = some e.2
  closed : H.Closed → r.2.Closed

theorem storeFE_ok (e : String × OM String DT) (H : Heap) : StoredF H e (H.storeFE e) := by
  have h := storeFL_ok [e] H
  rw [storeFL_one] at h
  refine ⟨h.ext, h.above _ (List.mem_singleton.mpr rfl), ?_, h.closed⟩
  obtain ⟨n, hn⟩ := h.val
  refine ⟨n, ?_⟩
  simp only [List.mapM_cons, List.mapM_nil] at hn
  cases hv : followMap ((H.storeFE e).2.val n) ((H.storeFE e).2.tm (H.storeFE e).1.2) with
  | none => rw [hv] at hn; cases hn
  | some y =>
    rw [hv] at hn
    have := List.cons.inj (Option.some.inj hn)
    rw [← this.1]

theorem extends_storeEx (H : Heap) (e : Example) : Extends H (H.storeEx e) := by
  refine ⟨Nat.le_succ _, fun o ho => ?_⟩
  cases o with
  | ex a => exact (upd_ne _ _ (Nat.ne_of_lt ho)).symm
  | _ => rfl

theorem extends_storeXo (H : Heap) (x : XML) : Extends H (H.storeXo x) := by
  refine ⟨Nat.le_succ _, fun o ho => ?_⟩
  cases o with
  | xo a => exact (upd_ne _ _ (Nat.ne_of_lt ho)).symm
  | _ => rfl

theorem closed_storeEx {H : Heap} (hw : H.Closed) (e : Example) : (H.storeEx e).Closed :=
  closed_of hw (Nat.le_succ _) fun o => Or.inl (by cases o <;> rfl)

theorem closed_storeXo {H : Heap} (hw : H.Closed) (x : XML) : (H.storeXo x).Closed :=
  closed_of hw (Nat.le_succ _) fun o => Or.inl (by cases o <;> rfl)

/-! ### Putting new objects into maps -/

theorem quiet_putEx (H : Heap) (m : Addr) (k : String) (e : Example) :
    Quiet [.em m] H (H.putEx m k e) := by
  refine ⟨(extends_storeEx H e).only.trans ⟨Nat.le_refl _, fun x _ hx => ?_⟩, fun hw => ?_⟩
  · cases x with
    | em a => exact (upd_ne _ _ fun e => hx (by simp [e])).symm
    | _ => rfl
  · refine closed_of (closed_storeEx hw e) (Nat.le_refl _) fun x => ?_
    cases x with
    | em a =>
      by_cases ha : a = m
      · subst ha
        refine Or.inr fun o ho => ?_
        simp only [Heap.refs, Heap.putEx, upd_self, List.mem_map] at ho
        obtain ⟨y, hy, rfl⟩ := ho
        rcases mem_put hy with hy | rfl
        · exact Nat.lt_succ_of_lt (hw (.em a) (.ex y.2)
            (List.mem_map_of_mem (f := fun e : String × Addr => Obj.ex e.2) hy))
        · exact Nat.lt_succ_self _
      · exact Or.inl (by simp only [Heap.refs, Heap.putEx, upd_ne _ _ ha]; rfl)
    | _ => exact Or.inl rfl

theorem quiet_putFacet (H : Heap) (m : Addr) (e : String × OM String DT) :
    Quiet [.fm m] H (H.putFacet m e) := by
  have h := storeFE_ok e H
  refine ⟨h.ext.only.trans ⟨Nat.le_refl _, fun x _ hx => ?_⟩, fun hw => ?_⟩
  · cases x with
    | fm a => exact (upd_ne _ _ fun e => hx (by simp [e])).symm
    | _ => rfl
  · refine closed_of (h.closed hw) (Nat.le_refl _) fun x => ?_
    cases x with
    | fm a =>
      by_cases ha : a = m
      · subst ha
        refine Or.inr fun o ho => ?_
        simp only [Heap.refs, Heap.putFacet, upd_self, List.mem_map] at ho
        obtain ⟨y, hy, rfl⟩ := ho
        rcases mem_put hy with hy | rfl
        · exact h.closed hw (.fm a) (.tm y.2)
            (List.mem_map_of_mem (f := fun e : String × Addr => Obj.tm e.2) hy)
        · exact h.above.self.2
      · exact Or.inl (by simp only [Heap.refs, Heap.putFacet, upd_ne _ _ ha])
    | _ => exact Or.inl rfl

theorem quiet_loadEm (X : Xyml) (kd : Kind) (m : Addr) (v : Node) (H : Heap) :
    Quiet [.em m] H (H.loadEm X kd m v).1 := by
  unfold Heap.loadEm
  refine liveMap_inv (R := Quiet [.em m]) (Quiet.refl _) Quiet.trans (fun k v H => ?_) v H
  exact store_inv (Quiet.refl _) _ (fun H (e : String × Example) => quiet_putEx H m e.1 e.2) H

theorem quiet_loadPm (X : Xyml) (m : Addr) (v : Node) (H : Heap) :
    Quiet [.tm m] H (H.loadPm X m v).1 := by
  unfold Heap.loadPm
  refine liveMap_inv (R := Quiet [.tm m]) (Quiet.refl _) Quiet.trans (fun k v H => ?_) v H
  exact store_inv (Quiet.refl _) _ (fun H (e : String × DT) => quiet_putType H m e.1 e.2) H

theorem quiet_loadFm (X : Xyml) (m : Addr) (v : Node) (H : Heap) :
    Quiet [.fm m] H (H.loadFm X m v).1 := by
  unfold Heap.loadFm
  refine liveMap_inv (R := Quiet [.fm m]) (Quiet.refl _) Quiet.trans (fun k v H => ?_) v H
  exact store_inv (Quiet.refl _) _ (fun H (e : String × OM String DT) => quiet_putFacet H m e) H

/-! ### Object types have their maps of properties -/

/-- An object type has its map of properties. -/
def TypeObj.Sound : TypeObj → Prop
  | .ext _ _ b _ ps _ => b.isObject = true → ps ≠ none
  | .basic .. => True

/-- All object types have their maps of properties. -/
def Heap.Sound (H : Heap) : Prop := ∀ a, (H.ty a).Sound

theorem storeExs_ty (es : List (String × Example)) (H : Heap) : (H.storeExs es).2.ty = H.ty := by
  induction es generalizing H with
  | nil => rfl
  | cons e es ih => rw [Heap.storeExs]; exact ih _

theorem sound_upd {H H' : Heap} {a : Addr} {o : TypeObj} (h : H.Sound) (ho : o.Sound)
    (hty : H'.ty = upd H.ty a o) : H'.Sound := fun b => by
  rw [hty]
  by_cases hb : b = a
  · subst hb; rw [upd_self]; exact ho
  · rw [upd_ne _ _ hb]; exact h b

mutual

theorem storeT_sound : ∀ (t : DT) (H : Heap), H.Sound → (H.storeT t).2.Sound
  | .basic i s x, H, h => by rw [Heap.storeT]; exact sound_upd (o := .basic i s H.next) h trivial rfl
  | .ext h b ⟨fs, fo⟩ ⟨ps, po⟩ it, H, hs => by
    rw [Heap.storeT, Heap.storeF, Heap.storeM, Heap.storeExt]
    have := storeI_sound it _ (storeL_sound ps _ (storeFL_sound fs H hs))
    refine sound_upd (fun a => ?_) ?_ rfl
    · rw [storeExs_ty]; exact this a
    · exact fun hb => by simp [hb]

theorem storeI_sound : ∀ (it : Option DT) (H : Heap), H.Sound → (H.storeI it).2.Sound
  | none, H, h => by rw [Heap.storeI]; exact h
  | some t, H, h => by rw [Heap.storeI]; exact storeT_sound t H h

theorem storeL_sound : ∀ (es : List (String × DT)) (H : Heap), H.Sound → (H.storeL es).2.Sound
  | [], H, h => by rw [Heap.storeL]; exact h
  | (k, t) :: es, H, h => by
    rw [Heap.storeL, Heap.storeE]
    exact storeL_sound es _ (storeT_sound t H h)

theorem storeFL_sound : ∀ (es : List (String × OM String DT)) (H : Heap),
    H.Sound → (H.storeFL es).2.Sound
  | [], H, h => by rw [Heap.storeFL]; exact h
  | (k, ⟨ts, o⟩) :: es, H, h => by
    rw [Heap.storeFL, Heap.storeFE, Heap.storeM]
    exact storeFL_sound es _ (storeL_sound ts H h)

end

theorem putType_sound {H : Heap} {m : Addr} {k : String} {t : DT} (h : H.Sound) :
    (H.putType m k t).Sound := storeT_sound t H h

theorem putFacet_sound {H : Heap} {m : Addr} {e : String × OM String DT} (h : H.Sound) :
    (H.putFacet m e).Sound := by
  have := storeFL_sound [e] H h
  rw [storeFL_one] at this
  exact this

theorem loadPm_sound (X : Xyml) (m : Addr) (v : Node) {H : Heap} (h : H.Sound) :
    (H.loadPm X m v).1.Sound := by
  unfold Heap.loadPm
  refine liveMap_inv (R := fun H H' => H.Sound → H'.Sound) (fun _ => id)
    (fun h h' hs => h' (h hs)) (fun k v H => ?_) v H h
  exact store_inv (R := fun H H' => H.Sound → H'.Sound) (fun _ => id) _
    (fun H (e : String × DT) h => putType_sound h) H

theorem loadFm_sound (X : Xyml) (m : Addr) (v : Node) {H : Heap} (h : H.Sound) :
    (H.loadFm X m v).1.Sound := by
  unfold Heap.loadFm
  refine liveMap_inv (R := fun H H' => H.Sound → H'.Sound) (fun _ => id)
    (fun h h' hs => h' (h hs)) (fun k v H => ?_) v H h
  exact store_inv (R := fun H H' => H.Sound → H'.Sound) (fun _ => id) _
    (fun H (e : String × OM String DT) h => putFacet_sound h) H

theorem loadEm_ty (X : Xyml) (kd : Kind) (m : Addr) (v : Node) (H : Heap) :
    (H.loadEm X kd m v).1.ty = H.ty := by
  unfold Heap.loadEm
  refine liveMap_inv (R := fun H H' => H'.ty = H.ty) (fun _ => rfl)
    (fun h h' => h'.trans h) (fun k v H => ?_) v H
  exact store_inv (R := fun H H' => H'.ty = H.ty) (fun _ => rfl) _
    (fun H (e : String × Example) => (rfl : (H.putEx m e.1 e.2).ty = H.ty)) H

theorem sound_of_ty {H H' : Heap} (h : H'.ty = H.ty) (hs : H.Sound) : H'.Sound := fun a => by
  rw [h]; exact hs a

/-! ### The data type itself -/

/-- The same maps, and the same kind. -/
def TypeObj.Kept : TypeObj → TypeObj → Prop
  | .basic i _ x, .basic i' _ x' => i' = i ∧ x' = x
  | .ext _ p b f ps _, .ext _ p' b' f' ps' _ =>
    p'.extra = p.extra ∧ p'.annotations = p.annotations ∧ p'.examples = p.examples ∧ f' = f ∧
      ps' = ps ∧ b'.kind = b.kind
  | _, _ => False

theorem TypeObj.Kept.refl (o : TypeObj) : o.Kept o := by
  cases o with
  | basic i s x => exact ⟨rfl, rfl⟩
  | ext h p b f ps it => exact ⟨rfl, rfl, rfl, rfl, rfl, rfl⟩

theorem TypeObj.Kept.trans {o o' o'' : TypeObj} (h : o.Kept o') (h' : o'.Kept o'') :
    o.Kept o'' := by
  cases o <;> cases o' <;> (try (cases h; done)) <;> cases o'' <;>
    (try (cases h'; done))
  · exact ⟨h'.1.trans h.1, h'.2.trans h.2⟩
  · obtain ⟨a1, a2, a3, a4, a5, a6⟩ := h
    obtain ⟨b1, b2, b3, b4, b5, b6⟩ := h'
    exact ⟨b1.trans a1, b2.trans a2, b3.trans a3, b4.trans a4, b5.trans a5, b6.trans a6⟩

/-- A data type points to its maps. -/
theorem maps_points {H : Heap} {a : Addr} {y : Obj} (h : y ∈ H.maps a) : H.Points (.ty a) y := by
  unfold Heap.maps at h
  cases ho : H.ty a with
  | basic i s x => rw [ho] at h; simpa [Heap.Points, Heap.refs, ho] using h
  | ext hd p b f ps it =>
    rw [ho] at h
    simp only [List.mem_append, List.mem_cons, List.not_mem_nil, or_false, List.mem_map] at h
    simp only [Heap.Points, Heap.refs, ho, List.mem_append, List.mem_cons, List.not_mem_nil,
      or_false, List.mem_map]
    exact h.elim (fun h => Or.inl (Or.inl (Or.inl (Or.inl h)))) fun h => Or.inl (Or.inr h)

theorem kept_maps {H H' : Heap} {a : Addr} (h : (H.ty a).Kept (H'.ty a)) :
    H'.maps a = H.maps a := by
  unfold Heap.maps
  cases ho : H.ty a <;> cases ho' : H'.ty a <;> rw [ho, ho'] at h <;>
    first | (cases h; done) | skip
  · obtain ⟨h1, h2⟩ := h
    rw [h2]
  · obtain ⟨h1, h2, h3, h4, h5, h6⟩ := h
    simp only [h1, h2, h3, h4, h5]

theorem kept_sound {o o' : TypeObj} (h : o.Kept o') (hs : o.Sound) : o'.Sound := by
  cases o <;> cases o' <;> (try (cases h; done))
  · trivial
  · obtain ⟨_, _, _, _, h5, h6⟩ := h
    intro hb
    rw [h5]
    refine hs ?_
    rw [Body.isObject_iff] at hb ⊢
    exact h6.symm.trans hb

/-- What loading values with the keys `ns` may do to a data type: its maps stay the same objects, and
so do the parts whose key is not among them. -/
structure Loads (ns : List String) (a : Addr) (H H' : Heap) : Prop where
  quiet : Quiet (.ty a :: H.maps a) H H'
  kept : (H.ty a).Kept (H'.ty a)
  get : ∀ s : TypeSec, (∀ n ∈ ns, s.key ≠ some n) → H'.get a s = H.get a s
  sound : H.Sound → H'.Sound

theorem Loads.refl (ns : List String) (a : Addr) (H : Heap) : Loads ns a H H :=
  ⟨.refl _ H, .refl _, fun _ _ => rfl, id⟩

theorem Loads.trans {ns : List String} {a : Addr} {H H' H'' : Heap} (h : Loads ns a H H')
    (h' : Loads ns a H' H'') : Loads ns a H H'' := by
  have hq := h'.quiet
  rw [kept_maps h.kept] at hq
  exact ⟨h.quiet.trans hq, h.kept.trans h'.kept, fun s hs => (h'.get s hs).trans (h.get s hs),
    fun hs => h'.sound (h.sound hs)⟩

theorem Loads.mono {ns ns' : List String} {a : Addr} {H H' : Heap} (h : Loads ns a H H')
    (hs : ∀ n ∈ ns, n ∈ ns') : Loads ns' a H H' :=
  ⟨h.quiet, h.kept, fun s hn => h.get s fun n hm => hn n (hs n hm), h.sound⟩

theorem Loads.of_map {ns : List String} {a : Addr} {H H' : Heap} {s : Obj} (ha : a < H.next)
    (hs : s ∈ H.maps a) (h : Quiet [s] H H') (hne : s ≠ .ty a) (hsd : H.Sound → H'.Sound) :
    Loads ns a H H' := by
  have hty : H.ty a = H'.ty a := h.only.same (.ty a) ha (by simpa using Ne.symm hne)
  refine ⟨h.mono fun o ho => ?_, ?_, fun s _ => by simp only [Heap.get, hty], hsd⟩
  · rw [List.mem_singleton.mp ho]; exact List.mem_cons_of_mem _ hs
  · rw [hty]; exact .refl _

/-- A change of the fields of the data type, after a step that takes new addresses. -/
theorem Loads.of_type {ns : List String} {a : Addr} {H H1 : Heap} {o : TypeObj} (he : Extends H H1)
    (hc : H.Closed → H1.Closed) (hsd : H.Sound → H1.Sound) (hk : (H.ty a).Kept o)
    (hg : ∀ s : TypeSec, (∀ n ∈ ns, s.key ≠ some n) → (H1.setTy a o).get a s = H.get a s)
    (hr : H.Closed → ∀ o' ∈ (H1.setTy a o).refs (.ty a), o'.addr < H1.next) :
    Loads ns a H (H1.setTy a o) := by
  have hq : Quiet [.ty a] H H1 := ⟨he.only, hc⟩
  refine ⟨(quiet_retype hq hr).mono fun x hx => ?_, ?_, hg, fun hs =>
    sound_upd (hsd hs) (kept_sound hk (hs a)) rfl⟩
  · rw [List.mem_singleton.mp hx]; exact List.mem_cons_self
  · simp only [Heap.setTy, upd_self]; exact hk

section
variable {ns : List String} {a : Addr} {H : Heap}

/-- A change of fields that are no pointers. -/
theorem Loads.of_fields {h h' : Hdr} {p : TypePtrs} {b b' : Body} {f : Addr} {ps it : Option Addr}
    (hty : H.ty a = .ext h p b f ps it) (hb : b'.kind = b.kind) :
    Loads ns a H (H.setTy a (.ext h' p b' f ps it)) := by
  refine .of_type (.refl H) id id (by rw [hty]; exact ⟨rfl, rfl, rfl, rfl, rfl, hb⟩)
    (fun s _ => ?_) fun hw => ?_
  · cases b <;> cases b' <;> cases hb <;> cases s <;>
      simp only [Heap.get, Heap.setTy, upd_self, hty]
  exact ext_bound (upd_self _ _ _) (closed_ext hw hty)

theorem loads_base {set : String → TypeObj} {x : Addr} (ha : a < H.next)
    (hx : .xm x ∈ H.maps a) (hs : ∀ s, Loads ns a H (H.setTy a (set s))) (k v : Node) :
    Loads ns a H (H.baseAssign a set x k v).1 := by
  unfold Heap.baseAssign
  split
  · cases asString v with
    | ok s => exact hs s
    | err e => exact .refl ns a H
    | panic c => exact .refl ns a H
  · exact .of_map ha hx (quiet_xm H x) (by simp) (sound_of_ty rfl)

theorem loads_extAssign (X : Xyml) {h : Hdr} {p : TypePtrs} {b : Body} {f : Addr}
    {ps it : Option Addr} (ha : a < H.next) (hty : H.ty a = .ext h p b f ps it) {k : Node}
    (hm : k.value ∈ ns) (v : Node) :
    Loads ns a H (H.extAssign X a h p b f ps it k v).1 := by
  have hbase := loads_base (ns := ns) (set := fun s => .ext { h with schema := s } p b f ps it) (x := p.extra)
    ha (by simp [Heap.maps, hty]) (fun s => .of_fields hty rfl) k v
  have hs : ∀ (r : Res String) (g : String → Hdr), Loads ns a H
      (store r (fun H s => H.setTy a (.ext (g s) p b f ps it)) H).1 := fun r g => by
    cases r with
    | ok s => exact .of_fields hty rfl
    | err e => exact .refl ns a H
    | panic c => exact .refl ns a H
  unfold Heap.extAssign
  by_cases hk : k.value = "displayName"
  · rw [if_pos hk]; exact hs _ fun s => { h with displayName := some s }
  rw [if_neg hk]; clear hk
  by_cases hk : k.value = "description"
  · rw [if_pos hk]; exact hs _ fun s => { h with description := some s }
  rw [if_neg hk]; clear hk
  by_cases hk : k.value = "xml"
  · rw [if_pos hk]
    cases Doc.loadXML X v with
    | ok x =>
      refine .of_type (extends_storeXo H x) (fun hw => closed_storeXo hw x) (sound_of_ty rfl)
        (by rw [hty]; exact ⟨rfl, rfl, rfl, rfl, rfl, rfl⟩) (fun s hs => ?_) fun hw => ?_
      · cases b <;> cases s <;> first
          | exact absurd (congrArg some hk.symm) (hs _ hm)
          | simp only [Heap.get, Heap.setTy, upd_self, hty]
      obtain ⟨h1, h2, h3, h4, h5, h6, h7, h8⟩ := closed_ext hw hty
      have up : ∀ {x}, x < H.next → x < H.next + 1 := Nat.lt_succ_of_lt
      refine ext_bound (upd_self _ _ _) ⟨up h1, up h2, up h3, up h4, ?_,
        fun x hx => up (h6 x hx), fun x hx => up (h7 x hx), fun x hx => up (h8 x hx)⟩
      intro x hx
      cases hx
      exact Nat.lt_succ_self _
    | err e => exact .refl ns a H
    | panic c => exact .refl ns a H
  rw [if_neg hk]; clear hk
  split
  · split
    · exact .refl ns a H
    · split
      · cases loadAnn v with
        | ok x =>
          exact .of_map ha (by simp [Heap.maps, hty]) (quiet_am H p.annotations) (by simp)
            (sound_of_ty rfl)
        | err e => exact .refl ns a H
        | panic c => exact .refl ns a H
      · exact hbase
  · exact hbase

theorem loads_typeAssign (X : Xyml) (ha : a < H.next) {k : Node} (hm : k.value ∈ ns) (v : Node) :
    Loads ns a H (H.typeAssign X a k v).1 := by
  unfold Heap.typeAssign
  cases hty : H.ty a with
  | basic i s x =>
    refine loads_base ha (by simp [Heap.maps, hty]) (fun s' => ?_) k v
    refine .of_type (.refl H) id id (by rw [hty]; exact ⟨rfl, rfl⟩) (fun s _ => ?_) fun hw o ho => ?_
    · cases s <;> simp only [Heap.get, Heap.setTy, upd_self, hty]
    simp only [Heap.refs, Heap.setTy, upd_self, List.mem_singleton] at ho
    subst ho
    exact hw (.ty a) (.xm x) (by simp [Heap.Points, Heap.refs, hty])
  | ext h p b f ps it =>
    dsimp only
    by_cases hk : k.value = "facets"
    · rw [if_pos hk]
      exact .of_map ha (by simp [Heap.maps, hty]) (quiet_loadFm X f v H) (by simp)
        (loadFm_sound X f v)
    rw [if_neg hk]; clear hk
    by_cases hk : k.value = "properties" ∧ b.isObject
    · rw [if_pos hk]
      cases ps with
      | none => exact .refl ns a H
      | some m =>
        exact .of_map ha (by simp [Heap.maps, hty]) (quiet_loadPm X m v H) (by simp)
          (loadPm_sound X m v)
    rw [if_neg hk]; clear hk
    by_cases hk : k.value = "items" ∧ b.isArray
    · rw [if_pos hk]
      cases hat X v with
      | ok t =>
        have hst := storeT_ok t H
        refine .of_type hst.ext hst.closed (storeT_sound t H) (by rw [hty]; exact ⟨rfl, rfl, rfl, rfl, rfl, rfl⟩)
          (fun s hs => ?_) fun hw => ?_
        · cases b <;> cases s <;> first
            | exact absurd (congrArg some hk.1.symm) (hs _ hm)
            | simp only [Heap.get, Heap.setTy, upd_self, hty]
        have up : ∀ {x}, x < H.next → x < (H.storeT t).2.next := fun hx =>
          Nat.lt_of_lt_of_le hx hst.ext.next
        obtain ⟨h1, h2, h3, h4, h5, h6, h7, h8⟩ := closed_ext hw hty
        refine ext_bound (upd_self _ _ _) ⟨up h1, up h2, up h3, up h4, fun x hx => up (h5 x hx),
          fun x hx => up (h6 x hx), fun x hx => up (h7 x hx), ?_⟩
        intro x hx
        cases hx
        exact hst.above.self.2
      | err e => exact .refl ns a H
      | panic c => exact .refl ns a H
    rw [if_neg hk]; clear hk
    by_cases hk : k.value = "example"
    · rw [if_pos hk]
      cases loadExample X b.kind v with
      | ok e =>
        refine .of_type (extends_storeEx H e) (fun hw => closed_storeEx hw e) (sound_of_ty rfl)
          (by rw [hty]; exact ⟨rfl, rfl, rfl, rfl, rfl, rfl⟩) (fun s hs => ?_) fun hw => ?_
        · cases b <;> cases s <;> first
            | exact absurd (congrArg some hk.symm) (hs _ hm)
            | simp only [Heap.get, Heap.setTy, upd_self, hty]
        obtain ⟨h1, h2, h3, h4, h5, h6, h7, h8⟩ := closed_ext hw hty
        have up : ∀ {x}, x < H.next → x < H.next + 1 := Nat.lt_succ_of_lt
        refine ext_bound (upd_self _ _ _) ⟨up h1, up h2, up h3, up h4,
          fun x hx => up (h5 x hx), ?_, fun x hx => up (h7 x hx), fun x hx => up (h8 x hx)⟩
        intro x hx
        cases hx
        exact Nat.lt_succ_self _
      | err e => exact .refl ns a H
      | panic c => exact .refl ns a H
    rw [if_neg hk]; clear hk
    by_cases hk : k.value = "examples"
    · rw [if_pos hk]
      exact .of_map ha (by simp [Heap.maps, hty]) (quiet_loadEm X b.kind p.examples v H) (by simp)
        (sound_of_ty (loadEm_ty X b.kind p.examples v H))
    rw [if_neg hk]; clear hk
    by_cases hk : k.value = "enum"
    · rw [if_pos hk]; exact .of_fields hty rfl
    rw [if_neg hk]; clear hk
    by_cases hk : k.value = "required"
    · rw [if_pos hk]
      cases asBool X v with
      | ok r => exact .of_fields hty rfl
      | err e => exact .refl ns a H
      | panic c => exact .refl ns a H
    rw [if_neg hk]; clear hk
    cases hb : b.assign X k.value v with
    | none => exact loads_extAssign X ha hty hm v
    | some r =>
      cases r with
      | ok b' => exact .of_fields hty (Body.assign_kind hb)
      | err e => exact .refl ns a H
      | panic c => exact .refl ns a H

end

/-- The keys of a document. -/
def nodeKeys : Node → List String
  | .map ps => ps.map fun p => p.1.value
  | _ => []

theorem live_inv_mem {R : Heap → Heap → Prop} (refl : ∀ H, R H H)
    (trans : ∀ {H H' H''}, R H H' → R H' H'' → R H H'')
    {f : Node → Node → Heap → Live Heap} (ps : List (Node × Node))
    (hf : ∀ p ∈ ps, ∀ H, R H (f p.1 p.2 H).1) (H : Heap) : R H (livePairs f ps H).1 := by
  induction ps generalizing H with
  | nil => exact refl H
  | cons p ps ih =>
    have h1 := hf p List.mem_cons_self H
    have ih := ih fun q hq => hf q (List.mem_cons_of_mem _ hq)
    rw [livePairs]
    split
    · rename_i s' u he
      rw [he] at h1
      exact trans h1 (ih s')
    · rename_i s' r _ he
      rw [he] at h1
      exact h1

theorem loads_typeLoad (X : Xyml) (a : Addr) (v : Node) (H : Heap) (ha : a < H.next) :
    Loads (nodeKeys v) a H (H.typeLoad X a v).1 := by
  unfold Heap.typeLoad
  split
  · cases hty : H.ty a with
    | basic i s x =>
      refine .of_type (.refl H) id id (by rw [hty]; exact ⟨rfl, rfl⟩) (fun s _ => ?_)
        fun hw o ho => ?_
      · cases s <;> simp only [Heap.get, Heap.setTy, upd_self, hty]
      simp only [Heap.refs, Heap.setTy, upd_self, List.mem_singleton] at ho
      subst ho
      exact hw (.ty a) (.xm x) (by simp [Heap.Points, Heap.refs, hty])
    | ext h p b f ps it => exact .of_fields hty rfl
  · cases v with
    | scalar t s => exact .refl _ a H
    | seq t l => exact .refl _ a H
    | map ps =>
      exact live_inv_mem (R := fun H H' => a < H.next → Loads (nodeKeys (.map ps)) a H H')
        (fun H _ => .refl _ a H)
        (fun h h' ha => (h ha).trans (h' (Nat.lt_of_lt_of_le ha (h ha).quiet.only.next)))
        ps (fun p hp H ha => loads_typeAssign X ha (List.mem_map.mpr ⟨p, hp, rfl⟩) p.2) H ha

end Verif.Doc
