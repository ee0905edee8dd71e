import Verif.Doc.HeapDocs

/-! # Lemmas about steps that hand over no pointers -/

namespace Verif.Doc
open Relation

/-- Every pointer of an old object is an old one, or goes from `p` to something new. -/
structure Grows (p : Obj) (H H' : Heap) : Prop where
  next : H.next ≤ H'.next
  closed : H'.Closed
  ptr : ∀ x y, x.addr < H.next → H'.Points x y → H.Points x y ∨ x = p ∧ H'.Above H.next y

theorem Grows.refl {p : Obj} {H : Heap} (hw : H.Closed) : Grows p H H :=
  ⟨Nat.le_refl _, hw, fun _ _ _ h => Or.inl h⟩

theorem Heap.Above.step {H : Heap} {lo : Addr} {o o' : Obj} (h : H.Above lo o)
    (hp : H.Points o o') : H.Above lo o' := fun x hx => h x (.head hp hx)

/-- What can be reached in the new heap. -/
theorem Grows.reaches {p : Obj} {H H' : Heap} (h : Grows p H H') (hw : H.Closed) {o x : Obj}
    (ho : o.addr < H.next) (hr : H'.Reaches o x) :
    H.Reaches o x ∨ H.Reaches o p ∧ H'.Above H.next x := by
  induction hr with
  | refl => exact Or.inl .refl
  | tail _ hp ih =>
    rcases ih with ih | ⟨hop, ih⟩
    · rcases h.ptr _ _ (closed_reaches hw ih ho) hp with h1 | ⟨rfl, h1⟩
      · exact Or.inl (ih.tail h1)
      · exact Or.inr ⟨ih, h1⟩
    · exact Or.inr ⟨hop, ih.step hp⟩

theorem Grows.above {p : Obj} {H H' : Heap} (h : Grows p H H') (hw : H.Closed) {lo : Addr} {o : Obj}
    (ho : H.Above lo o) (hlo : lo ≤ H.next) : H'.Above lo o := by
  intro x hx
  rcases h.reaches hw ho.self.2 hx with h1 | ⟨_, h1⟩
  · exact ⟨(ho x h1).1, Nat.lt_of_lt_of_le (ho x h1).2 h.next⟩
  · exact ⟨Nat.le_trans hlo h1.self.1, h1.self.2⟩

theorem Grows.trans {p : Obj} {H H' H'' : Heap} (h : Grows p H H') (h' : Grows p H' H'') :
    Grows p H H'' := by
  refine ⟨Nat.le_trans h.next h'.next, h'.closed, fun x y hx hp => ?_⟩
  rcases h'.ptr x y (Nat.lt_of_lt_of_le hx h.next) hp with h1 | ⟨rfl, h1⟩
  · rcases h.ptr x y hx h1 with h2 | ⟨rfl, h2⟩
    · exact Or.inl h2
    · exact Or.inr ⟨rfl, h'.above h.closed h2 h.next⟩
  · exact Or.inr ⟨rfl, h1.mono h.next⟩

theorem grows_refs {p : Obj} {H H' : Heap} (hw : H.Closed) (hn : H'.next = H.next)
    (h : ∀ o, H'.refs o = H.refs o) : Grows p H H' := by
  refine ⟨Nat.le_of_eq hn.symm, fun o o' hp => ?_, fun x y _ hp => Or.inl ?_⟩
  · rw [Heap.Points, h] at hp
    rw [hn]; exact hw o o' hp
  · rw [Heap.Points, h] at hp
    exact hp

theorem grows_ext {p : Obj} {H H' : Heap} (hw' : H'.Closed) (he : Extends H H') : Grows p H H' :=
  ⟨he.next, hw', fun x y hx hp => Or.inl (by
    rw [Heap.Points, same_refs (he.same x hx)]; exact hp)⟩

/-- Things that are apart stay apart. -/
theorem Grows.apart {p : Obj} {H H' : Heap} (h : Grows p H H') (hw : H.Closed) {o o' : Obj}
    (ho : o.addr < H.next) (ho' : o'.addr < H.next) (ha : H.Apart o o') : H'.Apart o o' := by
  intro x hx hx'
  rcases h.reaches hw ho hx with h1 | ⟨hp, h1⟩
  · rcases h.reaches hw ho' hx' with h2 | ⟨_, h2⟩
    · exact ha x h1 h2
    · exact absurd (closed_reaches hw h1 ho) (Nat.not_lt.mpr h2.self.1)
  · rcases h.reaches hw ho' hx' with h2 | ⟨hp', _⟩
    · exact absurd (closed_reaches hw h2 ho') (Nat.not_lt.mpr h1.self.1)
    · exact ha p hp hp'

/-- Every pointer of an old object is an old one or goes to something new, and what was apart stays
apart. -/
structure GrowsBy (H H' : Heap) : Prop where
  next : H.next ≤ H'.next
  closed : H'.Closed
  ptr : ∀ x y, x.addr < H.next → H'.Points x y → H.Points x y ∨ H'.Above H.next y
  apart : ∀ o o', o.addr < H.next → o'.addr < H.next → H.Apart o o' → H'.Apart o o'

theorem Grows.by {p : Obj} {H H' : Heap} (h : Grows p H H') (hw : H.Closed) : GrowsBy H H' :=
  ⟨h.next, h.closed, fun x y hx hp => (h.ptr x y hx hp).imp id And.right,
    fun _ _ ho ho' ha => h.apart hw ho ho' ha⟩

theorem GrowsBy.refl {H : Heap} (hw : H.Closed) : GrowsBy H H :=
  (Grows.refl (p := .ty 0) hw).by hw

/-- What can be reached in the new heap. -/
theorem GrowsBy.reaches {H H' : Heap} (h : GrowsBy H H') (hw : H.Closed) {o x : Obj}
    (ho : o.addr < H.next) (hr : H'.Reaches o x) : H.Reaches o x ∨ H'.Above H.next x := by
  induction hr with
  | refl => exact Or.inl .refl
  | tail _ hp ih =>
    rcases ih with ih | ih
    · exact (h.ptr _ _ (closed_reaches hw ih ho) hp).imp ih.tail id
    · exact Or.inr (ih.step hp)

theorem GrowsBy.above {H H' : Heap} (h : GrowsBy H H') (hw : H.Closed) {lo : Addr} {o : Obj}
    (ho : H.Above lo o) (hlo : lo ≤ H.next) : H'.Above lo o := by
  intro x hx
  rcases h.reaches hw ho.self.2 hx with h1 | h1
  · exact ⟨(ho x h1).1, Nat.lt_of_lt_of_le (ho x h1).2 h.next⟩
  · exact ⟨Nat.le_trans hlo h1.self.1, h1.self.2⟩

theorem GrowsBy.trans {H H' H'' : Heap} (h : GrowsBy H H') (h' : GrowsBy H' H'') :
    GrowsBy H H'' := by
  have up : ∀ {o : Obj}, o.addr < H.next → o.addr < H'.next := fun ho =>
    Nat.lt_of_lt_of_le ho h.next
  refine ⟨Nat.le_trans h.next h'.next, h'.closed, fun x y hx hp => ?_,
    fun o o' ho ho' ha => h'.apart o o' (up ho) (up ho') (h.apart o o' ho ho' ha)⟩
  rcases h'.ptr x y (up hx) hp with h1 | h1
  · exact (h.ptr x y hx h1).imp id fun h2 => h'.above h.closed h2 h.next
  · exact Or.inr (h1.mono h.next)

theorem growsBy_refs {H H' : Heap} (hw : H.Closed) (hn : H'.next = H.next)
    (h : ∀ o, H'.refs o = H.refs o) : GrowsBy H H' := (grows_refs (p := .ty 0) hw hn h).by hw

/-- One old object is linked to what has just been made. -/
theorem grows_alloc {p : Obj} {H H1 H' : Heap} (he : Extends H H1) (hc : H'.Closed)
    (hq : Only [p] H1 H') (hp : p.addr < H.next)
    (h : ∀ y, H'.Points p y → H.Points p y ∨ H1.Above H.next y) : Grows p H H' := by
  refine ⟨Nat.le_trans he.next hq.next, hc, fun x y hx hxy => ?_⟩
  by_cases hxp : x = p
  · subst hxp
    refine (h y hxy).imp id fun hy => ⟨rfl, fun z hz => ?_⟩
    have hs : SameFrom H1 H' y := fun z hz => hq.same z (hy z hz).2 fun hm => by
      rw [List.mem_singleton.mp hm] at hz
      exact absurd hp (Nat.not_lt.mpr (hy _ hz).1)
    have := hy z ((sameFrom_reaches hs).mpr hz)
    exact ⟨this.1, Nat.lt_of_lt_of_le this.2 hq.next⟩
  · refine Or.inl ?_
    rw [Heap.Points, same_refs (he.same x hx),
      same_refs (hq.same x (Nat.lt_of_lt_of_le hx he.next) (by simpa using hxp))]
    exact hxy

/-! ### Loading -/

theorem grows_putType {H : Heap} (hw : H.Closed) {m : Addr} (hm : m < H.next) (k : String) (t : DT) :
    Grows (.tm m) H (H.putType m k t) := by
  have h := storeT_ok t H
  have hq := (quiet_putType H m k t)
  have hs : SameFrom (H.storeT t).2 (H.putType m k t) (.ty (H.storeT t).1) := by
    intro x hx
    have hb := (h.above x hx).1
    cases x with
    | tm a =>
      refine (upd_ne _ _ fun e => ?_).symm
      subst e
      exact absurd hm (Nat.not_lt.mpr hb)
    | _ => rfl
  have hab : (H.putType m k t).Above H.next (.ty (H.storeT t).1) := fun x hx =>
    h.above x ((sameFrom_reaches hs).mpr hx)
  refine ⟨hq.only.next, hq.closed hw, fun x y hx hp => ?_⟩
  by_cases hxm : x = .tm m
  · subst hxm
    have hsm : H.tm m = (H.storeT t).2.tm m := h.ext.same (.tm m) hm
    simp only [Heap.Points, Heap.refs, Heap.putType, upd_self, List.mem_map] at hp
    obtain ⟨e, he, rfl⟩ := hp
    rcases mem_put he with he | rfl
    · rw [← hsm] at he
      exact Or.inl (reaches_entry he)
    · exact Or.inr ⟨rfl, hab⟩
  · refine Or.inl ?_
    rw [Heap.Points, same_refs (hq.only.same x hx (by simpa using hxm))]
    exact hp

theorem grows_loadTm (X : Xyml) {m : Addr} (v : Node) {H : Heap} (hw : H.Closed)
    (hm : m < H.next) : Grows (.tm m) H (H.loadTm X m v).1 := by
  have : (H.Closed → m < H.next → Grows (.tm m) H (H.loadTm X m v).1) := by
    unfold Heap.loadTm
    refine liveMap_inv (R := fun H H' => H.Closed → m < H.next → Grows (.tm m) H H')
      (fun H hw _ => .refl hw)
      (fun h h' hw hm => (h hw hm).trans
        (h' (h hw hm).closed (Nat.lt_of_lt_of_le hm (h hw hm).next))) (fun k v H => ?_) v H
    exact store_inv (R := fun H H' => H.Closed → m < H.next → Grows (.tm m) H H')
      (fun H hw _ => .refl hw) _ (fun H (e : String × DT) hw hm => grows_putType hw hm e.1 e.2) H
  exact this hw hm

/-- Either no pointer and no data type changes, or data types are loaded into the document's map of types. -/
theorem apiAssign_or (X : Xyml) (d : Addr) (k v : Node) (H : Heap) :
    ((H.apiAssign X d k v).1.ty = H.ty ∧ (H.apiAssign X d k v).1.next = H.next ∧
      ∀ o, (H.apiAssign X d k v).1.refs o = H.refs o) ∨
      H.apiAssign X d k v = H.loadTm X (H.api d).types v := by
  let P : Heap → Prop := fun H' =>
    H'.ty = H.ty ∧ H'.next = H.next ∧ ∀ o, H'.refs o = H.refs o
  show P (H.apiAssign X d k v).1 ∨ _
  have h0 : P H := ⟨rfl, rfl, fun _ => rfl⟩
  have hV : ∀ f, P (H.setApiV d f) := fun f => ⟨rfl, rfl, fun o => by
    cases o with
    | api a =>
      by_cases ha : a = d
      · subst ha; simp only [Heap.refs, Heap.setApiV, upd_self]
      · simp only [Heap.refs, Heap.setApiV, upd_ne _ _ ha]
    | _ => rfl⟩
  have hst : ∀ {α : Type} (r : Res α) (set : α → APISpec → APISpec),
      P (store r (fun H x => H.setApiV d (set x)) H).1 := fun r set => by
    cases r with
    | ok a => exact hV _
    | err e => exact h0
    | panic c => exact h0
  have hum : ∀ m x, P { H with um := upd H.um m x } := fun m x =>
    ⟨rfl, rfl, fun o => by cases o <;> rfl⟩
  have hx : ∀ r : Res Scalar, P (store r (fun H' s => H'.putXm (H.api d).extra s v) H).1 := by
    intro r
    cases r with
    | ok s => exact ⟨rfl, rfl, fun o => by cases o <;> rfl⟩
    | err e => exact h0
    | panic c => exact h0
  have hu : ∀ m, P (H.loadUm m v).1 := fun m => hum m _
  unfold Heap.apiAssign
  dsimp only
  split
  · exact Or.inl (hx _)
  · split
    · exact Or.inl h0
    · split
      · generalize loadAnn v = r
        cases r with
        | ok s => exact Or.inl ⟨rfl, rfl, fun o => by cases o <;> rfl⟩
        | err e => exact Or.inl h0
        | panic c => exact Or.inl h0
      · split
        · exact Or.inl (hum _ _)
        · unfold Heap.apiKey
          dsimp only
          by_cases hk : k.value = "title"
          · rw [if_pos hk]
            exact Or.inl (hst _ fun s a => { a with title := s })
          rw [if_neg hk]
          clear hk
          by_cases hk : k.value = "version"
          · rw [if_pos hk]
            exact Or.inl (hst _ fun s a => { a with version := some s })
          rw [if_neg hk]
          clear hk
          by_cases hk : k.value = "baseUri"
          · rw [if_pos hk]
            exact Or.inl (hst _ fun s a => { a with baseURI := some s })
          rw [if_neg hk]
          clear hk
          by_cases hk : k.value = "description"
          · rw [if_pos hk]
            exact Or.inl (hst _ fun s a => { a with description := some s })
          rw [if_neg hk]
          clear hk
          by_cases hk : k.value = "protocols"
          · rw [if_pos hk]
            exact Or.inl (hst _ fun s a => { a with protocols := some s })
          rw [if_neg hk]
          clear hk
          by_cases hk : k.value = "mediaType"
          · rw [if_pos hk]
            split
            · exact Or.inl (hV fun a =>
                { a with mediaType := some (a.mediaType.getD [] ++ [v.value]) })
            · exact Or.inl (hst _ fun s a => { a with mediaType := some s })
          rw [if_neg hk]
          clear hk
          by_cases hk : k.value = "documentation"
          · rw [if_pos hk]
            exact Or.inl (hV fun a =>
              { a with documentation := (liveDocs X v (H.api d).v.documentation).1 })
          rw [if_neg hk]
          clear hk
          by_cases hk : k.value = "securedBy"
          · rw [if_pos hk]
            exact Or.inl (hst _ fun s a => { a with securedBy := some s })
          rw [if_neg hk]
          clear hk
          by_cases hk : k.value = "uses"
          · rw [if_pos hk]
            exact Or.inl ⟨rfl, rfl, fun o => by cases o <;> rfl⟩
          rw [if_neg hk]
          clear hk
          by_cases hk : k.value = "securitySchemes"
          · rw [if_pos hk]
            exact Or.inl (hu _)
          rw [if_neg hk]
          clear hk
          by_cases hk : k.value = "baseUriParameters"
          · rw [if_pos hk]
            exact Or.inl (hu _)
          rw [if_neg hk]
          clear hk
          by_cases hk : k.value = "traits"
          · rw [if_pos hk]
            exact Or.inl (hu _)
          rw [if_neg hk]
          clear hk
          by_cases hk : k.value = "annotationTypes"
          · rw [if_pos hk]
            exact Or.inl (hu _)
          rw [if_neg hk]
          clear hk
          by_cases hk : k.value = "resourceTypes"
          · rw [if_pos hk]
            exact Or.inl (hu _)
          rw [if_neg hk]
          clear hk
          by_cases hk : k.value = "types" ∨ k.value = "schemas"
          · rw [if_pos hk]
            exact Or.inr rfl
          rw [if_neg hk]
          exact Or.inl (hx _)

theorem libAssign_or (X : Xyml) (d : Addr) (k v : Node) (H : Heap) :
    ((H.libAssign X d k v).1.ty = H.ty ∧ (H.libAssign X d k v).1.next = H.next ∧
      ∀ o, (H.libAssign X d k v).1.refs o = H.refs o) ∨
      H.libAssign X d k v = H.loadTm X (H.lib d).types v := by
  let P : Heap → Prop := fun H' =>
    H'.ty = H.ty ∧ H'.next = H.next ∧ ∀ o, H'.refs o = H.refs o
  show P (H.libAssign X d k v).1 ∨ _
  have h0 : P H := ⟨rfl, rfl, fun _ => rfl⟩
  have hV : ∀ f, P (H.setLibV d f) := fun f => ⟨rfl, rfl, fun o => by
    cases o with
    | lib a =>
      by_cases ha : a = d
      · subst ha; simp only [Heap.refs, Heap.setLibV, upd_self]
      · simp only [Heap.refs, Heap.setLibV, upd_ne _ _ ha]
    | _ => rfl⟩
  have hum : ∀ m x, P { H with um := upd H.um m x } := fun m x =>
    ⟨rfl, rfl, fun o => by cases o <;> rfl⟩
  have hx : ∀ r : Res Scalar, P (store r (fun H' s => H'.putXm (H.lib d).extra s v) H).1 := by
    intro r
    cases r with
    | ok s => exact ⟨rfl, rfl, fun o => by cases o <;> rfl⟩
    | err e => exact h0
    | panic c => exact h0
  have hu : ∀ m, P (H.loadUm m v).1 := fun m => hum m _
  unfold Heap.libAssign
  dsimp only
  split
  · exact Or.inl ⟨rfl, rfl, fun o => by cases o <;> rfl⟩
  split
  · exact Or.inl (hu _)
  split
  · exact Or.inr rfl
  split
  · exact Or.inl (hu _)
  split
  · exact Or.inl ⟨rfl, rfl, fun o => by cases o <;> rfl⟩
  split
  · generalize asString v = r
    cases r with
    | ok s => exact Or.inl (hV fun l => { l with usage := some s })
    | err e => exact Or.inl h0
    | panic c => exact Or.inl h0
  split
  · exact Or.inl (hu _)
  split
  · split
    · exact Or.inl h0
    · split
      · generalize loadAnn v = r
        cases r with
        | ok s => exact Or.inl ⟨rfl, rfl, fun o => by cases o <;> rfl⟩
        | err e => exact Or.inl h0
        | panic c => exact Or.inl h0
      · exact Or.inl (hx _)
  · exact Or.inl (hx _)

theorem grows_apiLoad (X : Xyml) (d : Addr) (v : Node) {H : Heap} (hw : H.Closed) :
    Grows (.tm (H.api d).types) H (H.apiLoad X d v).1 := by
  have : ∀ m, (H.Closed → (H.api d).types = m → Grows (.tm m) H (H.apiLoad X d v).1 ∧
      ((H.apiLoad X d v).1.api d).types = m) := by
    intro m
    unfold Heap.apiLoad
    refine liveMap_inv (R := fun H H' => H.Closed → (H.api d).types = m → Grows (.tm m) H H' ∧
      (H'.api d).types = m) (fun H hw hm => ⟨.refl hw, hm⟩)
      (fun h h' hw hm => ⟨(h hw hm).1.trans (h' (h hw hm).1.closed (h hw hm).2).1,
        (h' (h hw hm).1.closed (h hw hm).2).2⟩) (fun k v H hw hm => ⟨?_, ?_⟩) v H
    · rcases apiAssign_or X d k v H with h | h
      · exact grows_refs hw h.2.1 h.2.2
      · rw [h, hm]
        exact grows_loadTm X v hw (hm ▸ hw _ _ (api_points H d))
    · obtain ⟨w, h⟩ := (quietApi_assign X d k v H).ptrs
      rw [h]; exact hm
  exact (this _ hw rfl).1

theorem grows_libLoad (X : Xyml) (d : Addr) (v : Node) {H : Heap} (hw : H.Closed) :
    Grows (.tm (H.lib d).types) H (H.libLoad X d v).1 := by
  have : ∀ m, (H.Closed → (H.lib d).types = m → Grows (.tm m) H (H.libLoad X d v).1 ∧
      ((H.libLoad X d v).1.lib d).types = m) := by
    intro m
    unfold Heap.libLoad
    refine liveMap_inv (R := fun H H' => H.Closed → (H.lib d).types = m → Grows (.tm m) H H' ∧
      (H'.lib d).types = m) (fun H hw hm => ⟨.refl hw, hm⟩)
      (fun h h' hw hm => ⟨(h hw hm).1.trans (h' (h hw hm).1.closed (h hw hm).2).1,
        (h' (h hw hm).1.closed (h hw hm).2).2⟩) (fun k v H hw hm => ⟨?_, ?_⟩) v H
    · rcases libAssign_or X d k v H with h | h
      · exact grows_refs hw h.2.1 h.2.2
      · rw [h, hm]
        exact grows_loadTm X v hw (hm ▸ hw _ _ (lib_points H d))
    · obtain ⟨w, h⟩ := (quietLib_assign X d k v H).ptrs
      rw [h]; exact hm
  exact (this _ hw rfl).1

/-! ### Steps -/

/-- A step that changes one object, whose pointers are old or lead to a new empty map. -/
theorem grows_of_quiet {p : Obj} {H H' : Heap} (hw : H.Closed) (hq : Quiet [p] H H')
    (h : ∀ y, H'.Points p y → H.Points p y ∨ H.next ≤ y.addr ∧ H'.refs y = []) :
    Grows p H H' := by
  refine ⟨hq.only.next, hq.closed hw, fun x y hx hp => ?_⟩
  by_cases hxp : x = p
  · subst hxp
    rcases h y hp with h1 | ⟨h1, h2⟩
    · exact Or.inl h1
    · exact Or.inr ⟨rfl, above_leaf h1 (hq.closed hw _ _ hp) h2⟩
  · refine Or.inl ?_
    rw [Heap.Points, same_refs (hq.only.same x hx (by simpa using hxp))]
    exact hp

theorem refs_plain {H : Heap} {a : Addr} {op : TypeOp} {o : TypeObj}
    (h : (H.ty a).apply op = some o) (x : Obj) :
    Heap.refs { H with ty := upd H.ty a o } x = H.refs x := by
  cases x with
  | ty b =>
    by_cases hb : b = a
    · subst hb
      simp only [Heap.refs, upd_self]
      cases hty : H.ty b with
      | basic i s x =>
        rw [hty] at h
        cases op <;> simp only [TypeObj.apply, Option.some.injEq, reduceCtorEq] at h
        subst h; rfl
      | ext hh p b f ps it =>
        rw [hty] at h
        simp only [TypeObj.apply] at h
        split at h
        · cases h; rfl
        · cases hb : b.apply op with
          | none => rw [hb] at h; cases h
          | some b' => rw [hb] at h; cases h; rfl
    · simp only [Heap.refs, upd_ne _ _ hb]
  | _ => rfl

theorem mem_refs_ext {H : Heap} {a : Addr} {h : Hdr} {p : TypePtrs} {b : Body} {f : Addr}
    {ps it : Option Addr} (hty : H.ty a = .ext h p b f ps it) (y : Obj) :
    H.Points (.ty a) y ↔ (((((y = .xm p.extra ∨ y = .am p.annotations ∨ y = .em p.examples ∨
      y = .fm f) ∨ ∃ x, p.xml = some x ∧ .xo x = y) ∨ ∃ x, p.example = some x ∧ .ex x = y) ∨
      ∃ x, ps = some x ∧ .tm x = y) ∨ ∃ x, it = some x ∧ .ty x = y) := by
  simp only [Heap.Points, Heap.refs, hty, List.mem_append, List.mem_cons, List.mem_map,
    List.not_mem_nil, or_false, Option.mem_toList]

set_option linter.unusedSimpArgs false in
theorem points_setPtr {H H' : Heap} {a : Addr} {op : PtrOp}
    (hk : H.Keeps (.onType a (.ptr op))) (h : H.setPtr a op = some H') (y : Obj)
    (hp : H'.Points (.ty a) y) : H.Points (.ty a) y ∨ H.next ≤ y.addr ∧ H'.refs y = [] := by
  cases op with
  | setExample m =>
    cases hk
    simp only [Heap.setPtr] at h
    split at h
    · rename_i hty
      cases h
      rw [mem_refs_ext (upd_self _ _ _)] at hp
      rw [mem_refs_ext hty]
      simp only [Heap.pick, Option.getD_none, Option.some.injEq, reduceCtorEq, false_and,
        exists_false, exists_eq_left', or_false] at hp
      left
      rcases hp with ((h | h) | h) | h <;> simp only [h, true_or, or_true]
    · cases h
  | setExamples m =>
    cases hk
    simp only [Heap.setPtr] at h
    split at h
    · rename_i hty
      cases h
      rw [mem_refs_ext (upd_self _ _ _)] at hp
      rw [mem_refs_ext hty]
      simp only [Heap.pick, Option.getD_none, Option.some.injEq, reduceCtorEq, false_and,
        exists_false, exists_eq_left', or_false] at hp
      by_cases hN : y = .em H.next
      · subst hN
        exact Or.inr ⟨Nat.le_refl _, by simp [Heap.refs, freshIn, upd_self, OM.empty]⟩
      · left
        simp only [hN, false_or, or_false] at hp
        rcases hp with ((((h | h | h) | h) | h) | h) | h <;> simp [h]
    · cases h
  | setAnnotations m =>
    cases hk
    simp only [Heap.setPtr] at h
    split at h
    · rename_i hty
      cases h
      rw [mem_refs_ext (upd_self _ _ _)] at hp
      rw [mem_refs_ext hty]
      simp only [Heap.pick, Option.getD_none, Option.some.injEq, reduceCtorEq, false_and,
        exists_false, exists_eq_left', or_false] at hp
      by_cases hN : y = .am H.next
      · subst hN
        exact Or.inr ⟨Nat.le_refl _, by simp [Heap.refs, freshIn, upd_self, OM.empty]⟩
      · left
        simp only [hN, false_or, or_false] at hp
        rcases hp with ((((h | h | h) | h) | h) | h) | h <;> simp [h]
    · cases h
  | setFacetDefinitions m =>
    cases hk
    simp only [Heap.setPtr] at h
    split at h
    · rename_i hty
      cases h
      rw [mem_refs_ext (upd_self _ _ _)] at hp
      rw [mem_refs_ext hty]
      simp only [Heap.pick, Option.getD_none, Option.some.injEq, reduceCtorEq, false_and,
        exists_false, exists_eq_left', or_false] at hp
      by_cases hN : y = .fm H.next
      · subst hN
        exact Or.inr ⟨Nat.le_refl _, by simp [Heap.refs, freshIn, upd_self, OM.empty]⟩
      · left
        simp only [hN, false_or, or_false] at hp
        rcases hp with ((((h | h | h) | h) | h) | h) | h <;> simp [h]
    · cases h
  | setXML m =>
    cases hk
    simp only [Heap.setPtr] at h
    split at h
    · rename_i hty
      cases h
      rw [mem_refs_ext (upd_self _ _ _)] at hp
      rw [mem_refs_ext hty]
      simp only [Heap.pick, Option.getD_none, Option.some.injEq, reduceCtorEq, false_and,
        exists_false, exists_eq_left', or_false] at hp
      left
      rcases hp with ((h | h) | h) | h <;> simp only [h, true_or, or_true]
    · cases h
  | setExtraFacets m =>
    cases hk
    simp only [Heap.setPtr] at h
    split at h
    · rename_i hty
      cases h
      rw [mem_refs_ext (upd_self _ _ _)] at hp
      rw [mem_refs_ext hty]
      simp only [Heap.pick, Option.getD_none, Option.some.injEq, reduceCtorEq, false_and,
        exists_false, exists_eq_left', or_false] at hp
      by_cases hN : y = .xm H.next
      · subst hN
        exact Or.inr ⟨Nat.le_refl _, by simp [Heap.refs, freshIn, upd_self, OM.empty]⟩
      · left
        simp only [hN, false_or, or_false] at hp
        rcases hp with ((((h | h | h) | h) | h) | h) | h <;> simp [h]
    · cases h
  | setProperties m =>
    cases hk
    simp only [Heap.setPtr] at h
    split at h
    · rename_i hty
      cases h
      rw [mem_refs_ext (upd_self _ _ _)] at hp
      rw [mem_refs_ext hty]
      simp only [Heap.pick, Option.getD_none, Option.some.injEq, reduceCtorEq, false_and,
        exists_false, exists_eq_left', or_false] at hp
      by_cases hN : .tm H.next = y
      · subst hN
        exact Or.inr ⟨Nat.le_refl _, by simp [Heap.refs, freshIn, upd_self, OM.empty]⟩
      · left
        simp only [hN, false_or, or_false] at hp
        rcases hp with (((h | h | h | h) | h) | h) | h <;> simp [h]
    · cases h
  | setItems m =>
    cases hk
    simp only [Heap.setPtr] at h
    split at h
    · rename_i hty
      cases h
      rw [mem_refs_ext (upd_self _ _ _)] at hp
      rw [mem_refs_ext hty]
      simp only [Heap.pick, Option.getD_none, Option.some.injEq, reduceCtorEq, false_and,
        exists_false, exists_eq_left', or_false] at hp
      left
      rcases hp with ((h | h) | h) | h <;> simp only [h, true_or, or_true]
    · cases h

theorem grows_setPtr {H H' : Heap} (hw : H.Closed) {a : Addr} {op : PtrOp}
    (hl : H.Legal (.onType a (.ptr op))) (hk : H.Keeps (.onType a (.ptr op)))
    (h : H.setPtr a op = some H') : Grows (.ty a) H H' :=
  grows_of_quiet hw (quiet_setPtr hl h) (points_setPtr hk h)

theorem mem_refs_api {H : Heap} {d : Addr} {o : ApiObj} (hd : H.api d = o) (y : Obj) :
    H.Points (.api d) y ↔ y ∈ ([.tm o.types, .um o.traits, .um o.resourceTypes, .um o.annotationTypes,
      .am o.annotations, .um o.securitySchemes, .um o.baseURIParameters, .sm o.uses, .um o.resources,
      .xm o.extra] : List Obj) := by
  simp only [Heap.Points, Heap.refs, hd]

set_option linter.unusedSimpArgs false in
theorem points_setApi {H : Heap} {d : Addr} {op : ApiPtrOp} (hk : H.Keeps (.setApi d op)) (y : Obj)
    (hp : (H.setApi d op).Points (.api d) y) :
    H.Points (.api d) y ∨ H.next ≤ y.addr ∧ (H.setApi d op).refs y = [] := by
  cases op with
  | types m =>
    cases hk
    rw [mem_refs_api (upd_self _ _ _)] at hp
    rw [mem_refs_api rfl]
    simp only [Heap.pick, Option.getD_none] at hp
    by_cases hN : y = .tm H.next
    · subst hN
      exact Or.inr ⟨Nat.le_refl _, by simp [Heap.refs, Heap.setApi, freshIn, upd_self, OM.empty]⟩
    · left
      simp only [List.mem_cons, List.not_mem_nil, hN, false_or, or_false] at hp ⊢
      tauto
  | traits m =>
    cases hk
    rw [mem_refs_api (upd_self _ _ _)] at hp
    rw [mem_refs_api rfl]
    simp only [Heap.pick, Option.getD_none] at hp
    by_cases hN : y = .um H.next
    · subst hN
      exact Or.inr ⟨Nat.le_refl _, by simp [Heap.refs, Heap.setApi, freshIn, upd_self, OM.empty]⟩
    · left
      simp only [List.mem_cons, List.not_mem_nil, hN, false_or, or_false] at hp ⊢
      tauto
  | resourceTypes m =>
    cases hk
    rw [mem_refs_api (upd_self _ _ _)] at hp
    rw [mem_refs_api rfl]
    simp only [Heap.pick, Option.getD_none] at hp
    by_cases hN : y = .um H.next
    · subst hN
      exact Or.inr ⟨Nat.le_refl _, by simp [Heap.refs, Heap.setApi, freshIn, upd_self, OM.empty]⟩
    · left
      simp only [List.mem_cons, List.not_mem_nil, hN, false_or, or_false] at hp ⊢
      tauto
  | annotationTypes m =>
    cases hk
    rw [mem_refs_api (upd_self _ _ _)] at hp
    rw [mem_refs_api rfl]
    simp only [Heap.pick, Option.getD_none] at hp
    by_cases hN : y = .um H.next
    · subst hN
      exact Or.inr ⟨Nat.le_refl _, by simp [Heap.refs, Heap.setApi, freshIn, upd_self, OM.empty]⟩
    · left
      simp only [List.mem_cons, List.not_mem_nil, hN, false_or, or_false] at hp ⊢
      tauto
  | annotations m =>
    cases hk
    rw [mem_refs_api (upd_self _ _ _)] at hp
    rw [mem_refs_api rfl]
    simp only [Heap.pick, Option.getD_none] at hp
    by_cases hN : y = .am H.next
    · subst hN
      exact Or.inr ⟨Nat.le_refl _, by simp [Heap.refs, Heap.setApi, freshIn, upd_self, OM.empty]⟩
    · left
      simp only [List.mem_cons, List.not_mem_nil, hN, false_or, or_false] at hp ⊢
      tauto
  | securitySchemes m =>
    cases hk
    rw [mem_refs_api (upd_self _ _ _)] at hp
    rw [mem_refs_api rfl]
    simp only [Heap.pick, Option.getD_none] at hp
    by_cases hN : y = .um H.next
    · subst hN
      exact Or.inr ⟨Nat.le_refl _, by simp [Heap.refs, Heap.setApi, freshIn, upd_self, OM.empty]⟩
    · left
      simp only [List.mem_cons, List.not_mem_nil, hN, false_or, or_false] at hp ⊢
      tauto
  | uses m =>
    cases hk
    rw [mem_refs_api (upd_self _ _ _)] at hp
    rw [mem_refs_api rfl]
    simp only [Heap.pick, Option.getD_none] at hp
    by_cases hN : y = .sm H.next
    · subst hN
      exact Or.inr ⟨Nat.le_refl _, by simp [Heap.refs, Heap.setApi, freshIn, upd_self, OM.empty]⟩
    · left
      simp only [List.mem_cons, List.not_mem_nil, hN, false_or, or_false] at hp ⊢
      tauto

theorem grows_setApi {H : Heap} (hw : H.Closed) {d : Addr} {op : ApiPtrOp}
    (hl : H.Legal (.setApi d op)) (hk : H.Keeps (.setApi d op)) :
    Grows (.api d) H (H.setApi d op) :=
  grows_of_quiet hw (quiet_setApi hl) (points_setApi hk)

theorem mem_refs_lib {H : Heap} {d : Addr} {o : LibObj} (hd : H.lib d = o) (y : Obj) :
    H.Points (.lib d) y ↔ y ∈ ([.tm o.types, .um o.traits, .um o.resourceTypes, .um o.annotationTypes,
      .am o.annotations, .um o.securitySchemes, .sm o.uses, .xm o.extra] : List Obj) := by
  simp only [Heap.Points, Heap.refs, hd]

set_option linter.unusedSimpArgs false in
theorem points_setLib {H : Heap} {d : Addr} {op : LibPtrOp} (hk : H.Keeps (.setLib d op)) (y : Obj)
    (hp : (H.setLib d op).Points (.lib d) y) :
    H.Points (.lib d) y ∨ H.next ≤ y.addr ∧ (H.setLib d op).refs y = [] := by
  cases op with
  | types m =>
    cases hk
    rw [mem_refs_lib (upd_self _ _ _)] at hp
    rw [mem_refs_lib rfl]
    simp only [Heap.pick, Option.getD_none] at hp
    by_cases hN : y = .tm H.next
    · subst hN
      exact Or.inr ⟨Nat.le_refl _, by simp [Heap.refs, Heap.setLib, freshIn, upd_self, OM.empty]⟩
    · left
      simp only [List.mem_cons, List.not_mem_nil, hN, false_or, or_false] at hp ⊢
      tauto
  | traits m =>
    cases hk
    rw [mem_refs_lib (upd_self _ _ _)] at hp
    rw [mem_refs_lib rfl]
    simp only [Heap.pick, Option.getD_none] at hp
    by_cases hN : y = .um H.next
    · subst hN
      exact Or.inr ⟨Nat.le_refl _, by simp [Heap.refs, Heap.setLib, freshIn, upd_self, OM.empty]⟩
    · left
      simp only [List.mem_cons, List.not_mem_nil, hN, false_or, or_false] at hp ⊢
      tauto
  | resourceTypes m =>
    cases hk
    rw [mem_refs_lib (upd_self _ _ _)] at hp
    rw [mem_refs_lib rfl]
    simp only [Heap.pick, Option.getD_none] at hp
    by_cases hN : y = .um H.next
    · subst hN
      exact Or.inr ⟨Nat.le_refl _, by simp [Heap.refs, Heap.setLib, freshIn, upd_self, OM.empty]⟩
    · left
      simp only [List.mem_cons, List.not_mem_nil, hN, false_or, or_false] at hp ⊢
      tauto
  | annotations m =>
    cases hk
    rw [mem_refs_lib (upd_self _ _ _)] at hp
    rw [mem_refs_lib rfl]
    simp only [Heap.pick, Option.getD_none] at hp
    by_cases hN : y = .am H.next
    · subst hN
      exact Or.inr ⟨Nat.le_refl _, by simp [Heap.refs, Heap.setLib, freshIn, upd_self, OM.empty]⟩
    · left
      simp only [List.mem_cons, List.not_mem_nil, hN, false_or, or_false] at hp ⊢
      tauto
  | uses m =>
    cases hk
    rw [mem_refs_lib (upd_self _ _ _)] at hp
    rw [mem_refs_lib rfl]
    simp only [Heap.pick, Option.getD_none] at hp
    by_cases hN : y = .sm H.next
    · subst hN
      exact Or.inr ⟨Nat.le_refl _, by simp [Heap.refs, Heap.setLib, freshIn, upd_self, OM.empty]⟩
    · left
      simp only [List.mem_cons, List.not_mem_nil, hN, false_or, or_false] at hp ⊢
      tauto

theorem grows_setLib {H : Heap} (hw : H.Closed) {d : Addr} {op : LibPtrOp}
    (hl : H.Legal (.setLib d op)) (hk : H.Keeps (.setLib d op)) :
    Grows (.lib d) H (H.setLib d op) :=
  grows_of_quiet hw (quiet_setLib hl) (points_setLib hk)

theorem grows_edit {H : Heap} (hw : H.Closed) {e : MapEdit} (hl : H.Legal (.edit e))
    (hk : H.Keeps (.edit e)) : ∃ p, Grows p H (H.edit e) := by
  cases e with
  | tm m f =>
    refine ⟨.tm m, grows_of_quiet hw (quiet_edit hl) fun y hp => Or.inl ?_⟩
    simp only [Heap.Points, Heap.refs, Heap.edit, upd_self, List.mem_map] at hp ⊢
    obtain ⟨x, hx, rfl⟩ := hp
    obtain ⟨k, hk⟩ := hk x hx
    exact ⟨_, hk, rfl⟩
  | fm m f =>
    refine ⟨.fm m, grows_of_quiet hw (quiet_edit hl) fun y hp => Or.inl ?_⟩
    simp only [Heap.Points, Heap.refs, Heap.edit, upd_self, List.mem_map] at hp ⊢
    obtain ⟨x, hx, rfl⟩ := hp
    obtain ⟨k, hk⟩ := hk x hx
    exact ⟨_, hk, rfl⟩
  | em m f =>
    refine ⟨.em m, grows_of_quiet hw (quiet_edit hl) fun y hp => Or.inl ?_⟩
    simp only [Heap.Points, Heap.refs, Heap.edit, upd_self, List.mem_map] at hp ⊢
    obtain ⟨x, hx, rfl⟩ := hp
    obtain ⟨k, hk⟩ := hk x hx
    exact ⟨_, hk, rfl⟩
  | am m f => exact ⟨.am m, grows_refs hw rfl fun o => by cases o <;> rfl⟩
  | ex m f => exact ⟨.am m, grows_refs hw rfl fun o => by cases o <;> rfl⟩
  | xo m f => exact ⟨.am m, grows_refs hw rfl fun o => by cases o <;> rfl⟩
  | xm m f => exact ⟨.am m, grows_refs hw rfl fun o => by cases o <;> rfl⟩
  | sm m f => exact ⟨.am m, grows_refs hw rfl fun o => by cases o <;> rfl⟩
  | um m f => exact ⟨.am m, grows_refs hw rfl fun o => by cases o <;> rfl⟩

/-! ### Loading into a data type -/

theorem grows_putEx {H : Heap} (hw : H.Closed) (m : Addr) (k : String) (e : Example) : Grows (.em m) H (H.putEx m k e) := by
  refine grows_of_quiet hw (quiet_putEx H m k e) fun y hp => ?_
  simp only [Heap.Points, Heap.refs, Heap.putEx, upd_self, List.mem_map] at hp
  obtain ⟨x, hx, rfl⟩ := hp
  rcases mem_put hx with hx | rfl
  · exact Or.inl (List.mem_map_of_mem (f := fun e : String × Addr => Obj.ex e.2) hx)
  · exact Or.inr ⟨Nat.le_refl _, rfl⟩

theorem grows_putFacet {H : Heap} (hw : H.Closed) {m : Addr} (hm : m < H.next)
    (e : String × OM String DT) : Grows (.fm m) H (H.putFacet m e) := by
  have h := storeFE_ok e H
  have hsm : H.fm m = (H.storeFE e).2.fm m := h.ext.same (.fm m) hm
  refine grows_alloc h.ext ((quiet_putFacet H m e).closed hw) ⟨Nat.le_refl _, fun x _ hx => ?_⟩ hm
    fun y hp => ?_
  · cases x with
    | fm a => exact (upd_ne _ _ fun e => hx (by simp [e])).symm
    | _ => rfl
  · simp only [Heap.Points, Heap.refs, Heap.putFacet, upd_self, List.mem_map] at hp
    obtain ⟨x, hx, rfl⟩ := hp
    rcases mem_put hx with hx | rfl
    · rw [← hsm] at hx
      exact Or.inl (List.mem_map_of_mem (f := fun e : String × Addr => Obj.tm e.2) hx)
    · exact Or.inr h.above

/-- Loading into one map. -/
theorem grows_liveMap {p : Obj} {α : Type} {r : Node → Node → Res α} {put : Heap → α → Heap}
    (hput : ∀ H x, H.Closed → p.addr < H.next → Grows p H (put H x)) (v : Node) {H : Heap}
    (hw : H.Closed) (hp : p.addr < H.next) :
    Grows p H (liveMap (fun k v H => store (r k v) put H) v H).1 := by
  refine liveMap_inv (R := fun H H' => H.Closed → p.addr < H.next → Grows p H H')
    (fun H hw _ => .refl hw)
    (fun h h' hw hm => (h hw hm).trans
      (h' (h hw hm).closed (Nat.lt_of_lt_of_le hm (h hw hm).next))) (fun k v H => ?_) v H hw hp
  exact store_inv (R := fun H H' => H.Closed → p.addr < H.next → Grows p H H')
    (fun H hw _ => .refl hw) _ (fun H e hw hm => hput H e hw hm) H

theorem grows_loadEm (X : Xyml) (kd : Kind) {m : Addr} (v : Node) {H : Heap} (hw : H.Closed)
    (hm : m < H.next) : Grows (.em m) H (H.loadEm X kd m v).1 :=
  grows_liveMap (p := .em m) (put := fun H (e : String × Example) => H.putEx m e.1 e.2)
    (fun _ e hw _ => grows_putEx hw m e.1 e.2) v hw hm

theorem grows_loadPm (X : Xyml) {m : Addr} (v : Node) {H : Heap} (hw : H.Closed)
    (hm : m < H.next) : Grows (.tm m) H (H.loadPm X m v).1 :=
  grows_liveMap (p := .tm m) (put := fun H (e : String × DT) => H.putType m e.1 e.2)
    (fun _ e hw hm => grows_putType hw hm e.1 e.2) v hw hm

theorem grows_loadFm (X : Xyml) {m : Addr} (v : Node) {H : Heap} (hw : H.Closed)
    (hm : m < H.next) : Grows (.fm m) H (H.loadFm X m v).1 :=
  grows_liveMap (p := .fm m) (put := fun H (e : String × OM String DT) => H.putFacet m e)
    (fun _ e hw hm => grows_putFacet hw hm e) v hw hm

/-- A change of the fields of a data type, after a step that takes new addresses. -/
theorem grows_setTy {H H1 : Heap} {a : Addr} {o : TypeObj} (he : Extends H H1)
    (hc : (H1.setTy a o).Closed) (ha : a < H.next)
    (h : ∀ y, (H1.setTy a o).Points (.ty a) y → H.Points (.ty a) y ∨ H1.Above H.next y) :
    Grows (.ty a) H (H1.setTy a o) := by
  refine grows_alloc he hc ⟨Nat.le_refl _, fun x _ hx => ?_⟩ ha h
  cases x with
  | ty b => exact (upd_ne _ _ fun e => hx (by simp [e])).symm
  | _ => rfl

section
variable {a : Addr} {H : Heap}

theorem grows_fields {h h' : Hdr} {p : TypePtrs} {b b' : Body} {f : Addr} {ps it : Option Addr}
    (hw : H.Closed) (ha : a < H.next) (hty : H.ty a = .ext h p b f ps it) (hb : b'.kind = b.kind) :
    Grows (.ty a) H (H.setTy a (.ext h' p b' f ps it)) := by
  refine grows_setTy (.refl H) ((Loads.of_fields (ns := []) hty hb).quiet.closed hw) ha fun y hy => Or.inl ?_
  rw [mem_refs_ext (upd_self _ _ _)] at hy
  rw [mem_refs_ext hty]
  exact hy

theorem growsBy_base {set : String → TypeObj} {x : Addr} (hw : H.Closed)
    (hs : ∀ s, GrowsBy H (H.setTy a (set s))) (k v : Node) :
    GrowsBy H (H.baseAssign a set x k v).1 := by
  unfold Heap.baseAssign
  split
  · cases asString v with
    | ok s => exact hs s
    | err e => exact .refl hw
    | panic c => exact .refl hw
  · exact growsBy_refs hw rfl fun o => by cases o <;> rfl

theorem above_ex (H : Heap) (e : Example) : (H.storeEx e).Above H.next (.ex H.next) :=
  above_leaf (Nat.le_refl _) (Nat.lt_succ_self _) rfl

theorem above_xo (H : Heap) (x : XML) : (H.storeXo x).Above H.next (.xo H.next) :=
  above_leaf (Nat.le_refl _) (Nat.lt_succ_self _) rfl

theorem growsBy_extAssign (X : Xyml) {h : Hdr} {p : TypePtrs} {b : Body} {f : Addr}
    {ps it : Option Addr} (hw : H.Closed) (ha : a < H.next) (hty : H.ty a = .ext h p b f ps it)
    (k v : Node) : GrowsBy H (H.extAssign X a h p b f ps it k v).1 := by
  have hc := (loads_extAssign (k := k) X ha hty (List.mem_singleton.mpr rfl) v).quiet.closed hw
  have hbase := growsBy_base (set := fun s => .ext { h with schema := s } p b f ps it)
    (x := p.extra) hw (fun s => (grows_fields hw ha hty rfl).by hw) k v
  have hs : ∀ (r : Res String) (g : String → Hdr), GrowsBy H
      (store r (fun H s => H.setTy a (.ext (g s) p b f ps it)) H).1 := fun r g => by
    cases r with
    | ok s => exact (grows_fields hw ha hty rfl).by hw
    | err e => exact .refl hw
    | panic c => exact .refl hw
  revert hc
  unfold Heap.extAssign
  by_cases hk : k.value = "displayName"
  · rw [if_pos hk]; exact fun _ => hs _ fun s => { h with displayName := some s }
  rw [if_neg hk]; clear hk
  by_cases hk : k.value = "description"
  · rw [if_pos hk]; exact fun _ => hs _ fun s => { h with description := some s }
  rw [if_neg hk]; clear hk
  by_cases hk : k.value = "xml"
  · rw [if_pos hk]
    cases Doc.loadXML X v with
    | ok x =>
      refine fun hc => (grows_setTy (extends_storeXo H x) hc ha fun y hy => ?_).by hw
      rw [mem_refs_ext (upd_self _ _ _)] at hy
      rw [mem_refs_ext hty]
      rcases hy with (((hy | ⟨_, hx, rfl⟩) | hy) | hy) | hy
      · exact Or.inl (Or.inl (Or.inl (Or.inl (Or.inl hy))))
      · rw [← Option.some.inj hx]; exact Or.inr (above_xo H x)
      · exact Or.inl (Or.inl (Or.inl (Or.inr hy)))
      · exact Or.inl (Or.inl (Or.inr hy))
      · exact Or.inl (Or.inr hy)
    | err e => exact fun _ => .refl hw
    | panic c => exact fun _ => .refl hw
  rw [if_neg hk]; clear hk
  intro _
  split
  · split
    · exact .refl hw
    · split
      · cases loadAnn v with
        | ok x => exact growsBy_refs hw rfl fun o => by cases o <;> rfl
        | err e => exact .refl hw
        | panic c => exact .refl hw
      · exact hbase
  · exact hbase

theorem growsBy_typeAssign (X : Xyml) (hw : H.Closed) (ha : a < H.next) (k v : Node) :
    GrowsBy H (H.typeAssign X a k v).1 := by
  have hc := (loads_typeAssign (k := k) X ha (List.mem_singleton.mpr rfl) v).quiet.closed hw
  revert hc
  unfold Heap.typeAssign
  cases hty : H.ty a with
  | basic i s x =>
    refine fun _ => growsBy_base hw (fun s' => ?_) k v
    refine growsBy_refs hw rfl fun o => ?_
    cases o with
    | ty b =>
      by_cases hb : b = a
      · subst hb; simp only [Heap.refs, Heap.setTy, upd_self, hty]
      · simp only [Heap.refs, Heap.setTy, upd_ne _ _ hb]
    | _ => rfl
  | ext h p b f ps it =>
    have hm : ∀ y, y ∈ H.maps a → y.addr < H.next := fun y hy => hw (.ty a) y (maps_points hy)
    have hf : .fm f ∈ H.maps a := by simp [Heap.maps, hty]
    have he : .em p.examples ∈ H.maps a := by simp [Heap.maps, hty]
    dsimp only
    by_cases hk : k.value = "facets"
    · rw [if_pos hk]
      exact fun _ => (grows_loadFm X v hw (hm _ hf)).by hw
    rw [if_neg hk]; clear hk
    by_cases hk : k.value = "properties" ∧ b.isObject
    · rw [if_pos hk]
      cases ps with
      | none => exact fun _ => .refl hw
      | some m =>
        have hp : .tm m ∈ H.maps a := by simp [Heap.maps, hty]
        exact fun _ => (grows_loadPm X v hw (hm _ hp)).by hw
    rw [if_neg hk]; clear hk
    by_cases hk : k.value = "items" ∧ b.isArray
    · rw [if_pos hk]
      cases hat X v with
      | ok t =>
        have hst := storeT_ok t H
        refine fun hc => (grows_setTy hst.ext hc ha fun y hy => ?_).by hw
        rw [mem_refs_ext (upd_self _ _ _)] at hy
        rw [mem_refs_ext hty]
        rcases hy with hy | ⟨_, hx, rfl⟩
        · exact Or.inl (Or.inl hy)
        · rw [← Option.some.inj hx]; exact Or.inr hst.above
      | err e => exact fun _ => .refl hw
      | panic c => exact fun _ => .refl hw
    rw [if_neg hk]; clear hk
    by_cases hk : k.value = "example"
    · rw [if_pos hk]
      cases loadExample X b.kind v with
      | ok e =>
        refine fun hc => (grows_setTy (extends_storeEx H e) hc ha fun y hy => ?_).by hw
        rw [mem_refs_ext (upd_self _ _ _)] at hy
        rw [mem_refs_ext hty]
        rcases hy with ((hy | ⟨_, hx, rfl⟩) | hy) | hy
        · exact Or.inl (Or.inl (Or.inl (Or.inl hy)))
        · rw [← Option.some.inj hx]; exact Or.inr (above_ex H e)
        · exact Or.inl (Or.inl (Or.inr hy))
        · exact Or.inl (Or.inr hy)
      | err e => exact fun _ => .refl hw
      | panic c => exact fun _ => .refl hw
    rw [if_neg hk]; clear hk
    by_cases hk : k.value = "examples"
    · rw [if_pos hk]
      exact fun _ => (grows_loadEm X b.kind v hw (hm _ he)).by hw
    rw [if_neg hk]; clear hk
    by_cases hk : k.value = "enum"
    · rw [if_pos hk]; exact fun _ => (grows_fields hw ha hty rfl).by hw
    rw [if_neg hk]; clear hk
    by_cases hk : k.value = "required"
    · rw [if_pos hk]
      cases asBool X v with
      | ok r => exact fun _ => (grows_fields hw ha hty rfl).by hw
      | err e => exact fun _ => .refl hw
      | panic c => exact fun _ => .refl hw
    rw [if_neg hk]; clear hk
    intro _
    cases hb : b.assign X k.value v with
    | none => exact growsBy_extAssign X hw ha hty k v
    | some r =>
      cases r with
      | ok b' => exact (grows_fields hw ha hty (Body.assign_kind hb)).by hw
      | err e => exact .refl hw
      | panic c => exact .refl hw

theorem growsBy_typeLoad (X : Xyml) (v : Node) (hw : H.Closed) (ha : a < H.next) :
    GrowsBy H (H.typeLoad X a v).1 := by
  unfold Heap.typeLoad
  split
  · cases hty : H.ty a with
    | basic i s x =>
      refine growsBy_refs hw rfl fun o => ?_
      cases o with
      | ty b =>
        by_cases hb : b = a
        · subst hb; simp only [Heap.refs, Heap.setTy, upd_self, hty]
        · simp only [Heap.refs, Heap.setTy, upd_ne _ _ hb]
      | _ => rfl
    | ext h p b f ps it => exact (grows_fields hw ha hty rfl).by hw
  · cases v with
    | scalar t s => exact .refl hw
    | seq t l => exact .refl hw
    | map ps =>
      exact live_inv (R := fun H H' => H.Closed → a < H.next → GrowsBy H H')
        (fun H hw _ => .refl hw)
        (fun h h' hw ha => (h hw ha).trans
          (h' (h hw ha).closed (Nat.lt_of_lt_of_le ha (h hw ha).next)))
        (fun k v H hw ha => growsBy_typeAssign X hw ha k v) ps H hw ha

end

/-- A step that hands over no pointer links old objects to new ones only. -/
theorem grows_act (X : Xyml) {H : Heap} (hw : H.Closed) {s : Act} (hl : H.Legal s)
    (hk : H.Keeps s) : GrowsBy H (H.act X s) := by
  have hq := quiet_act X hl
  have hnew : H.touches s = [] → GrowsBy H (H.act X s) := fun h =>
    (grows_ext (p := .ty 0) (hq.closed hw) (Only.extends (h ▸ hq.only))).by hw
  cases s with
  | newType k => exact hnew rfl
  | parseType v => exact hnew rfl
  | newMap => exact hnew rfl
  | newExample k => exact hnew rfl
  | newXML => exact hnew rfl
  | newApi => exact hnew rfl
  | newLib => exact hnew rfl
  | onType a c =>
    clear hq hnew
    simp only [Heap.act]
    cases h : H.typeCall a c with
    | none => exact .refl hw
    | some H' =>
      cases c with
      | plain op =>
        simp only [Heap.typeCall] at h
        split at h
        · cases ho : (H.ty a).apply op with
          | none => rw [ho] at h; cases h
          | some o => rw [ho] at h; cases h; exact growsBy_refs hw rfl (refs_plain ho)
        · cases h
      | ptr op => exact (grows_setPtr hw hl hk h).by hw
  | edit e => exact (grows_edit hw hl hk).elim fun _ h => h.by hw
  | onApi d op =>
    refine (grows_of_quiet (p := .api d) hw hq fun y hp => Or.inl ?_).by hw
    simp only [Heap.act] at hp
    split at hp
    · simp only [Heap.Points, Heap.refs, Heap.setApiV, upd_self] at hp ⊢
      exact hp
    · exact hp
  | setApi d op => exact (grows_setApi hw hl hk).by hw
  | loadApi d v => exact (grows_apiLoad X d v hw).by hw
  | onLib d op =>
    refine (grows_of_quiet (p := .lib d) hw hq fun y hp => Or.inl ?_).by hw
    simp only [Heap.act] at hp
    split at hp
    · simp only [Heap.Points, Heap.refs, Heap.setLibV, upd_self] at hp ⊢
      exact hp
    · exact hp
  | setLib d op => exact (grows_setLib hw hl hk).by hw
  | loadLib d v => exact (grows_libLoad X d v hw).by hw
  | loadType a v => exact growsBy_typeLoad X v hw hl
  | loadEx m v => exact growsBy_refs hw rfl fun o => by cases o <;> rfl
  | loadXML m v => exact growsBy_refs hw rfl fun o => by cases o <;> rfl

theorem apart_run {X : Xyml} {H : Heap} (hr : Reachable X H) {ss : List Act}
    (hl : H.LegalAll X ss) (hk : H.KeepsAll X ss) {o o' : Obj} (ho : o.addr < H.next)
    (ho' : o'.addr < H.next) (ha : H.Apart o o') : (H.run X ss).Apart o o' := by
  induction ss generalizing H with
  | nil => exact ha
  | cons s ss ih =>
    have hg := grows_act X hr.closed hl.1 hk.1
    exact ih (.act s hr hl.1) hl.2 hk.2 (Nat.lt_of_lt_of_le ho hg.next)
      (Nat.lt_of_lt_of_le ho' hg.next) (hg.apart _ _ ho ho' ha)

end Verif.Doc
