import Verif.Doc.HeapThreads

/-!
# What calls read

A call has the same effect in two heaps that have the same objects wherever the call may write, and the
same free address: it reads nothing else.
-/

namespace Verif.Doc

/-- The same at the given addresses. -/
def Along {α : Type} (P : Addr → Prop) (f f' : Addr → α) : Prop := ∀ b, P b → f' b = f b

theorem Along.upd {α : Type} {P : Addr → Prop} {f f' : Addr → α} (h : Along P f f') {a a' : Addr}
    {x x' : α} (ha : a' = a) (hx : x' = x) : Along P (upd f a x) (upd f' a' x') := by
  subst ha hx
  intro b hb
  unfold Doc.upd
  split
  · rfl
  · exact h b hb

theorem Along.ite {α : Type} {P : Addr → Prop} {c : Prop} [Decidable c] {f f' g g' : Addr → α}
    (h : Along P f f') (h' : Along P g g') :
    Along P (if c then f else g) (if c then f' else g') := by
  split
  · exact h
  · exact h'

/-- The two heaps have the same objects where `Q` holds, and the same free address. -/
structure Alike (Q : Obj → Prop) (H H' : Heap) : Prop where
  next : H'.next = H.next
  ty : Along (fun a => Q (.ty a)) H.ty H'.ty
  tm : Along (fun a => Q (.tm a)) H.tm H'.tm
  fm : Along (fun a => Q (.fm a)) H.fm H'.fm
  am : Along (fun a => Q (.am a)) H.am H'.am
  em : Along (fun a => Q (.em a)) H.em H'.em
  ex : Along (fun a => Q (.ex a)) H.ex H'.ex
  xo : Along (fun a => Q (.xo a)) H.xo H'.xo
  xm : Along (fun a => Q (.xm a)) H.xm H'.xm
  sm : Along (fun a => Q (.sm a)) H.sm H'.sm
  um : Along (fun a => Q (.um a)) H.um H'.um
  api : Along (fun a => Q (.api a)) H.api H'.api
  lib : Along (fun a => Q (.lib a)) H.lib H'.lib

theorem Alike.same {Q : Obj → Prop} {H H' : Heap} (h : Alike Q H H') {o : Obj} (ho : Q o) :
    Same H H' o := by
  cases o with
  | ty a => exact (h.ty a ho).symm
  | tm a => exact (h.tm a ho).symm
  | fm a => exact (h.fm a ho).symm
  | am a => exact (h.am a ho).symm
  | em a => exact (h.em a ho).symm
  | ex a => exact (h.ex a ho).symm
  | xo a => exact (h.xo a ho).symm
  | xm a => exact (h.xm a ho).symm
  | sm a => exact (h.sm a ho).symm
  | um a => exact (h.um a ho).symm
  | api a => exact (h.api a ho).symm
  | lib a => exact (h.lib a ho).symm

theorem alike_of {Q : Obj → Prop} {H H' : Heap} (hn : H'.next = H.next)
    (h : ∀ o, Q o → Same H H' o) : Alike Q H H' where
  next := hn
  ty a ha := (h (.ty a) ha).symm
  tm a ha := (h (.tm a) ha).symm
  fm a ha := (h (.fm a) ha).symm
  am a ha := (h (.am a) ha).symm
  em a ha := (h (.em a) ha).symm
  ex a ha := (h (.ex a) ha).symm
  xo a ha := (h (.xo a) ha).symm
  xm a ha := (h (.xm a) ha).symm
  sm a ha := (h (.sm a) ha).symm
  um a ha := (h (.um a) ha).symm
  api a ha := (h (.api a) ha).symm
  lib a ha := (h (.lib a) ha).symm

section
variable {Q : Obj → Prop} {H H' : Heap}

theorem Alike.bump (h : Alike Q H H') (n : Nat) : H'.next + n = H.next + n := by rw [h.next]

/-! ### New objects -/

theorem Alike.storeExs (es : List (String × Example)) : ∀ {H H' : Heap}, Alike Q H H' →
    (H'.storeExs es).1 = (H.storeExs es).1 ∧ Alike Q (H.storeExs es).2 (H'.storeExs es).2 := by
  induction es with
  | nil => intro H H' h; exact ⟨rfl, h⟩
  | cons e es ih =>
    intro H H' h
    have := @ih { H with ex := Doc.upd H.ex H.next e.2, next := H.next + 1 }
      { H' with ex := Doc.upd H'.ex H'.next e.2, next := H'.next + 1 }
      { h with next := h.bump 1, ex := h.ex.upd h.next rfl }
    refine ⟨?_, this.2⟩
    simp only [Heap.storeExs]
    rw [this.1, h.next]

theorem Alike.storeExt (hd : Hdr) (b : Body) (fs ps : OM String Addr) (it : Option Addr)
    (h : Alike Q H H') : (H'.storeExt hd b fs ps it).1 = (H.storeExt hd b fs ps it).1 ∧
      Alike Q (H.storeExt hd b fs ps it).2 (H'.storeExt hd b fs ps it).2 := by
  obtain ⟨h1, h⟩ := h.storeExs hd.examples.ents
  refine ⟨h.next, ?_⟩
  unfold Heap.storeExt
  refine { h with
    next := h.bump 1, ty := h.ty.upd h.next ?_, xm := h.xm.upd h.next rfl,
    am := h.am.upd h.next rfl, em := h.em.upd h.next ?_, fm := h.fm.upd h.next rfl,
    tm := ?_, xo := ?_, ex := ?_ }
  · rw [h.next]
  · exact Along.ite (h.tm.upd h.next rfl) h.tm
  · rw [h1]
  · cases hd.example with
    | none => exact h.ex
    | some x => exact h.ex.upd h.next rfl
  · cases hd.xml with
    | none => exact h.xo
    | some x => exact h.xo.upd h.next rfl

mutual

theorem Alike.storeT : ∀ (t : DT) {H H' : Heap}, Alike Q H H' →
    (H'.storeT t).1 = (H.storeT t).1 ∧ Alike Q (H.storeT t).2 (H'.storeT t).2
  | .basic i s x, H, H', h => by
    refine ⟨h.next, ?_⟩
    simp only [Heap.storeT]
    exact { h with
      next := h.bump 1, ty := h.ty.upd h.next (by rw [h.next])
      xm := h.xm.upd h.next rfl }
  | .ext hd b fs ps it, H, H', h => by
    have hf := Alike.storeF fs h
    have hp := Alike.storeM ps hf.2
    have hi := Alike.storeI it hp.2
    simp only [Heap.storeT]
    rw [hf.1, hp.1, hi.1]
    exact hi.2.storeExt hd b _ _ _

theorem Alike.storeI : ∀ (t : Option DT) {H H' : Heap}, Alike Q H H' →
    (H'.storeI t).1 = (H.storeI t).1 ∧ Alike Q (H.storeI t).2 (H'.storeI t).2
  | none, H, H', h => by simp only [Heap.storeI]; exact ⟨trivial, h⟩
  | some t, H, H', h => by
    have ht := Alike.storeT t h
    simp only [Heap.storeI]
    exact ⟨by rw [ht.1], ht.2⟩

theorem Alike.storeM : ∀ (m : OM String DT) {H H' : Heap}, Alike Q H H' →
    (H'.storeM m).1 = (H.storeM m).1 ∧ Alike Q (H.storeM m).2 (H'.storeM m).2
  | ⟨es, o⟩, H, H', h => by
    have ht := Alike.storeL es h
    simp only [Heap.storeM]
    exact ⟨by rw [ht.1], ht.2⟩

theorem Alike.storeL : ∀ (es : List (String × DT)) {H H' : Heap}, Alike Q H H' →
    (H'.storeL es).1 = (H.storeL es).1 ∧ Alike Q (H.storeL es).2 (H'.storeL es).2
  | [], H, H', h => by simp only [Heap.storeL]; exact ⟨trivial, h⟩
  | e :: es, H, H', h => by
    have h1 := Alike.storeE e h
    have h2 := Alike.storeL es h1.2
    simp only [Heap.storeL]
    exact ⟨by rw [h1.1, h2.1], h2.2⟩

theorem Alike.storeE : ∀ (e : String × DT) {H H' : Heap}, Alike Q H H' →
    (H'.storeE e).1 = (H.storeE e).1 ∧ Alike Q (H.storeE e).2 (H'.storeE e).2
  | (k, t), H, H', h => by
    have ht := Alike.storeT t h
    simp only [Heap.storeE]
    exact ⟨by rw [ht.1], ht.2⟩

theorem Alike.storeF : ∀ (m : OM String (OM String DT)) {H H' : Heap}, Alike Q H H' →
    (H'.storeF m).1 = (H.storeF m).1 ∧ Alike Q (H.storeF m).2 (H'.storeF m).2
  | ⟨es, o⟩, H, H', h => by
    have ht := Alike.storeFL es h
    simp only [Heap.storeF]
    exact ⟨by rw [ht.1], ht.2⟩

theorem Alike.storeFL : ∀ (es : List (String × OM String DT)) {H H' : Heap}, Alike Q H H' →
    (H'.storeFL es).1 = (H.storeFL es).1 ∧ Alike Q (H.storeFL es).2 (H'.storeFL es).2
  | [], H, H', h => by simp only [Heap.storeFL]; exact ⟨trivial, h⟩
  | e :: es, H, H', h => by
    have h1 := Alike.storeFE e h
    have h2 := Alike.storeFL es h1.2
    simp only [Heap.storeFL]
    exact ⟨by rw [h1.1, h2.1], h2.2⟩

theorem Alike.storeFE : ∀ (e : String × OM String DT) {H H' : Heap}, Alike Q H H' →
    (H'.storeFE e).1 = (H.storeFE e).1 ∧ Alike Q (H.storeFE e).2 (H'.storeFE e).2
  | (k, m), H, H', h => by
    have ht := Alike.storeM m h
    simp only [Heap.storeFE]
    exact ⟨by rw [ht.2.next], { ht.2 with
      next := ht.2.bump 1, tm := ht.2.tm.upd ht.2.next ht.1 }⟩

end

theorem Alike.newMap (h : Alike Q H H') : Alike Q H.newMap H'.newMap :=
  { h with
    next := h.bump 1, tm := h.tm.upd h.next rfl, fm := h.fm.upd h.next rfl
    am := h.am.upd h.next rfl, em := h.em.upd h.next rfl, xm := h.xm.upd h.next rfl
    sm := h.sm.upd h.next rfl, um := h.um.upd h.next rfl }

theorem Alike.newApi (h : Alike Q H H') : Alike Q H.newApi.2 H'.newApi.2 :=
  { h with
    next := h.bump 6, api := h.api.upd h.next (by rw [h.next])
    tm := h.tm.upd h.next rfl
    um := (((((h.um.upd h.next rfl).upd (h.bump 1) rfl).upd (h.bump 2) rfl).upd (h.bump 3) rfl).upd
      (h.bump 4) rfl).upd (h.bump 5) rfl
    am := h.am.upd h.next rfl, sm := h.sm.upd h.next rfl, xm := h.xm.upd h.next rfl }

theorem Alike.newLib (h : Alike Q H H') : Alike Q H.newLib.2 H'.newLib.2 :=
  { h with
    next := h.bump 4, lib := h.lib.upd h.next (by rw [h.next])
    tm := h.tm.upd h.next rfl
    um := (((h.um.upd h.next rfl).upd (h.bump 1) rfl).upd (h.bump 2) rfl).upd (h.bump 3) rfl
    am := h.am.upd h.next rfl, sm := h.sm.upd h.next rfl, xm := h.xm.upd h.next rfl }

theorem Alike.storeEx (h : Alike Q H H') (e : Example) : Alike Q (H.storeEx e) (H'.storeEx e) :=
  { h with next := h.bump 1, ex := h.ex.upd h.next rfl }

theorem Alike.storeXo (h : Alike Q H H') (e : XML) : Alike Q (H.storeXo e) (H'.storeXo e) :=
  { h with next := h.bump 1, xo := h.xo.upd h.next rfl }

/-! ### Calls -/

theorem Alike.setTy (h : Alike Q H H') (a : Addr) (o : TypeObj) :
    Alike Q (H.setTy a o) (H'.setTy a o) := { h with ty := h.ty.upd rfl rfl }

theorem Alike.pick (h : Alike Q H H') (m : Option Addr) : H'.pick m = H.pick m := by
  unfold Heap.pick; rw [h.next]

theorem Alike.after (h : Alike Q H H') (m : Option Addr) : H'.after m = H.after m := by
  unfold Heap.after; rw [h.next]

theorem Alike.fresh {K V : Type} {P : Addr → Prop} {f f' : Addr → OM K V} (h : Alike Q H H')
    (m : Option Addr) (hf : Along P f f') : Along P (freshIn H m f) (freshIn H' m f') := by
  unfold freshIn
  exact Along.ite (hf.upd h.next rfl) hf

theorem Alike.typeCall (h : Alike Q H H') {a : Addr} (ha : Q (.ty a)) (c : TypeCall) :
    Alike Q ((H.typeCall a c).getD H) ((H'.typeCall a c).getD H') := by
  have he := h.ty a ha
  cases c with
  | plain op =>
    simp only [Heap.typeCall, he]
    split
    · cases (H.ty a).apply op with
      | none => exact h
      | some o => exact h.setTy a o
    · exact h
  | ptr op =>
    simp only [Heap.typeCall]
    cases op <;> simp only [Heap.setPtr, he] <;> split <;> first
      | exact h
      | exact h.setTy a _
      | (rename_i m _ _ _ _ _ _ _ _
         exact { h with
          next := h.after m, ty := h.ty.upd rfl (by rw [h.pick])
          em := h.fresh m h.em })
      | (rename_i m _ _ _ _ _ _ _ _
         exact { h with
          next := h.after m, ty := h.ty.upd rfl (by rw [h.pick])
          am := h.fresh m h.am })
      | (rename_i m _ _ _ _ _ _ _ _
         exact { h with
          next := h.after m, ty := h.ty.upd rfl (by rw [h.pick])
          xm := h.fresh m h.xm })
      | (rename_i m _ _ _ _ _ _ _ _
         exact { h with
          next := h.after m, ty := h.ty.upd rfl (by rw [h.pick])
          fm := h.fresh m h.fm })
      | (rename_i m _ _ _ _ _ _ _ _
         exact { h with
          next := h.after m, ty := h.ty.upd rfl (by rw [h.pick])
          tm := h.fresh m h.tm })

theorem Alike.setApi (h : Alike Q H H') {d : Addr} (hd : Q (.api d)) (op : ApiPtrOp) :
    Alike Q (H.setApi d op) (H'.setApi d op) := by
  have he := h.api d hd
  cases op <;> rename_i m <;> simp only [Heap.setApi] <;> first
    | exact { h with
        next := h.after m, api := h.api.upd rfl (by rw [h.pick, he])
        tm := h.fresh m h.tm }
    | exact { h with
        next := h.after m, api := h.api.upd rfl (by rw [h.pick, he])
        um := h.fresh m h.um }
    | exact { h with
        next := h.after m, api := h.api.upd rfl (by rw [h.pick, he])
        am := h.fresh m h.am }
    | exact { h with
        next := h.after m, api := h.api.upd rfl (by rw [h.pick, he])
        sm := h.fresh m h.sm }

theorem Alike.setLib (h : Alike Q H H') {d : Addr} (hd : Q (.lib d)) (op : LibPtrOp) :
    Alike Q (H.setLib d op) (H'.setLib d op) := by
  have he := h.lib d hd
  cases op <;> rename_i m <;> simp only [Heap.setLib] <;> first
    | exact { h with
        next := h.after m, lib := h.lib.upd rfl (by rw [h.pick, he])
        tm := h.fresh m h.tm }
    | exact { h with
        next := h.after m, lib := h.lib.upd rfl (by rw [h.pick, he])
        um := h.fresh m h.um }
    | exact { h with
        next := h.after m, lib := h.lib.upd rfl (by rw [h.pick, he])
        am := h.fresh m h.am }
    | exact { h with
        next := h.after m, lib := h.lib.upd rfl (by rw [h.pick, he])
        sm := h.fresh m h.sm }

theorem Alike.setApiV (h : Alike Q H H') {d : Addr} (hd : Q (.api d)) (f : APISpec → APISpec) :
    Alike Q (H.setApiV d f) (H'.setApiV d f) :=
  { h with api := h.api.upd rfl (by rw [h.api d hd]) }

theorem Alike.setLibV (h : Alike Q H H') {d : Addr} (hd : Q (.lib d)) (f : Library → Library) :
    Alike Q (H.setLibV d f) (H'.setLibV d f) :=
  { h with lib := h.lib.upd rfl (by rw [h.lib d hd]) }


/-! ### Loading -/

/-- The same result, and heaps that are alike. -/
def LiveAlike (Q : Obj → Prop) (r r' : Live Heap) : Prop := Alike Q r.1 r'.1 ∧ r'.2 = r.2

theorem liveAlike_store {α : Type} {set set' : Heap → α → Heap} (h : Alike Q H H') (r : Res α)
    (hs : ∀ a, r = .ok a → Alike Q (set H a) (set' H' a)) :
    LiveAlike Q (store r set H) (store r set' H') := by
  cases r with
  | ok a => exact ⟨hs a rfl, rfl⟩
  | err e => exact ⟨h, rfl⟩
  | panic c => exact ⟨h, rfl⟩

theorem liveAlike_ite {c : Prop} [Decidable c] {r s r' s' : Live Heap} (h : LiveAlike Q r r')
    (h' : LiveAlike Q s s') : LiveAlike Q (if c then r else s) (if c then r' else s') := by
  split
  · exact h
  · exact h'

theorem liveAlike_pairs {P : Heap → Prop} {f : Node → Node → Heap → Live Heap}
    (hf : ∀ k v H H', Alike Q H H' → P H → LiveAlike Q (f k v H) (f k v H') ∧ P (f k v H).1)
    (ps : List (Node × Node)) : ∀ {H H' : Heap}, Alike Q H H' → P H →
      LiveAlike Q (livePairs f ps H) (livePairs f ps H') := by
  induction ps with
  | nil => intro H H' h _; exact ⟨h, rfl⟩
  | cons p ps ih =>
    intro H H' h hP
    obtain ⟨⟨h1, h2⟩, h3⟩ := hf p.1 p.2 H H' h hP
    rw [livePairs, livePairs]
    cases hr : f p.1 p.2 H with
    | mk s r =>
      cases hr' : f p.1 p.2 H' with
      | mk s' r' =>
        rw [hr] at h1 h2 h3
        rw [hr'] at h1 h2
        simp only at h1 h2 h3
        subst h2
        cases r' with
        | ok u => exact ih h1 h3
        | err e => exact ⟨h1, rfl⟩
        | panic c => exact ⟨h1, rfl⟩

theorem liveAlike_map {P : Heap → Prop} {f : Node → Node → Heap → Live Heap}
    (hf : ∀ k v H H', Alike Q H H' → P H → LiveAlike Q (f k v H) (f k v H') ∧ P (f k v H).1)
    (v : Node) (h : Alike Q H H') (hP : P H) : LiveAlike Q (liveMap f v H) (liveMap f v H') := by
  cases v with
  | map ps => exact liveAlike_pairs hf ps h hP
  | scalar t s => exact ⟨h, rfl⟩
  | seq t l => exact ⟨h, rfl⟩

theorem Alike.putType (h : Alike Q H H') {m : Addr} (hm : Q (.tm m)) (k : String) (t : DT) :
    Alike Q (H.putType m k t) (H'.putType m k t) := by
  have ht := h.storeT t
  exact { ht.2 with tm := ht.2.tm.upd rfl (by rw [ht.1, ht.2.tm m hm]) }

theorem Alike.putEx (h : Alike Q H H') {m : Addr} (hm : Q (.em m)) (k : String) (e : Example) :
    Alike Q (H.putEx m k e) (H'.putEx m k e) :=
  { h.storeEx e with em := h.em.upd rfl (by rw [h.next, h.em m hm]) }

theorem Alike.putFacet (h : Alike Q H H') {m : Addr} (hm : Q (.fm m)) (e : String × OM String DT) :
    Alike Q (H.putFacet m e) (H'.putFacet m e) := by
  have ht := Alike.storeFE e h
  exact { ht.2 with fm := ht.2.fm.upd rfl (by rw [ht.1, ht.2.fm m hm]) }

theorem Alike.putXm (h : Alike Q H H') {m : Addr} (hm : Q (.xm m)) (k : Scalar) (v : Node) :
    Alike Q (H.putXm m k v) (H'.putXm m k v) :=
  { h with xm := h.xm.upd rfl (by rw [h.xm m hm]) }

theorem Alike.putAm (h : Alike Q H H') {m : Addr} (hm : Q (.am m)) (k : String) (v : Ann) :
    Alike Q (H.putAm m k v) (H'.putAm m k v) :=
  { h with am := h.am.upd rfl (by rw [h.am m hm]) }

theorem Alike.loadUm (h : Alike Q H H') {m : Addr} (hm : Q (.um m)) (v : Node) :
    LiveAlike Q (H.loadUm m v) (H'.loadUm m v) := by
  unfold Heap.loadUm
  rw [h.um m hm]
  exact ⟨{ h with um := h.um.upd rfl rfl }, rfl⟩

theorem Alike.loadSm (h : Alike Q H H') {m : Addr} (hm : Q (.sm m)) (v : Node) :
    LiveAlike Q (H.loadSm m v) (H'.loadSm m v) := by
  unfold Heap.loadSm
  rw [h.sm m hm]
  exact ⟨{ h with sm := h.sm.upd rfl rfl }, rfl⟩

theorem Alike.loadAm (h : Alike Q H H') {m : Addr} (hm : Q (.am m)) (v : Node) :
    LiveAlike Q (H.loadAm m v) (H'.loadAm m v) := by
  unfold Heap.loadAm
  rw [h.am m hm]
  exact ⟨{ h with am := h.am.upd rfl rfl }, rfl⟩

theorem Alike.loadTm (X : Xyml) (h : Alike Q H H') {m : Addr} (hm : Q (.tm m)) (v : Node) :
    LiveAlike Q (H.loadTm X m v) (H'.loadTm X m v) := by
  unfold Heap.loadTm
  refine liveAlike_map (P := fun _ => True) (fun k v H H' h _ => ⟨?_, trivial⟩) v h trivial
  exact liveAlike_store h _ fun (e : String × DT) _ => h.putType hm e.1 e.2

theorem Alike.loadPm (X : Xyml) (h : Alike Q H H') {m : Addr} (hm : Q (.tm m)) (v : Node) :
    LiveAlike Q (H.loadPm X m v) (H'.loadPm X m v) := by
  unfold Heap.loadPm
  refine liveAlike_map (P := fun _ => True) (fun k v H H' h _ => ⟨?_, trivial⟩) v h trivial
  exact liveAlike_store h _ fun (e : String × DT) _ => h.putType hm e.1 e.2

theorem Alike.loadEm (X : Xyml) (kd : Kind) (h : Alike Q H H') {m : Addr} (hm : Q (.em m))
    (v : Node) : LiveAlike Q (H.loadEm X kd m v) (H'.loadEm X kd m v) := by
  unfold Heap.loadEm
  refine liveAlike_map (P := fun _ => True) (fun k v H H' h _ => ⟨?_, trivial⟩) v h trivial
  exact liveAlike_store h _ fun (e : String × Example) _ => h.putEx hm e.1 e.2

theorem Alike.loadFm (X : Xyml) (h : Alike Q H H') {m : Addr} (hm : Q (.fm m)) (v : Node) :
    LiveAlike Q (H.loadFm X m v) (H'.loadFm X m v) := by
  unfold Heap.loadFm
  refine liveAlike_map (P := fun _ => True) (fun k v H H' h _ => ⟨?_, trivial⟩) v h trivial
  exact liveAlike_store h _ fun (e : String × OM String DT) _ => h.putFacet hm e

theorem Alike.apiAssign (X : Xyml) (h : Alike Q H H') {d : Addr} (hd : Q (.api d))
    (hr : ∀ o ∈ H.refs (.api d), Q o) (k v : Node) :
    LiveAlike Q (H.apiAssign X d k v) (H'.apiAssign X d k v) := by
  have he := h.api d hd
  simp only [Heap.refs, List.forall_mem_cons] at hr
  obtain ⟨r1, r2, r3, r4, r5, r6, r7, r8, r9, r10, -⟩ := hr
  unfold Heap.apiAssign
  dsimp only
  rw [he]
  split
  · exact liveAlike_store h _ fun s _ => h.putXm r10 s v
  split
  · exact ⟨h, rfl⟩
  split
  · exact liveAlike_store h _ fun s _ => h.putAm r5 _ s
  split
  · exact ⟨{ h with um := h.um.upd rfl (by rw [h.um _ r9]) }, rfl⟩
  unfold Heap.apiKey
  dsimp only
  rw [he]
  repeat' refine liveAlike_ite ?_ ?_
  all_goals first
    | exact liveAlike_store h _ fun s _ => h.setApiV hd _
    | exact ⟨h.setApiV hd _, rfl⟩
    | exact ⟨h.setApiV hd fun a =>
        { a with mediaType := some (a.mediaType.getD [] ++ [v.value]) }, rfl⟩
    | exact ⟨h.setApiV hd fun a => { a with documentation := _ }, rfl⟩
    | exact h.loadUm (by assumption) v
    | exact h.loadSm (by assumption) v
    | exact h.loadTm X (by assumption) v
    | exact liveAlike_store h _ fun (s : Scalar) _ => h.putXm r10 s v

theorem Alike.apiLoad (X : Xyml) (h : Alike Q H H') {d : Addr} (hd : Q (.api d))
    (hr : ∀ o ∈ H.refs (.api d), Q o) (v : Node) :
    LiveAlike Q (H.apiLoad X d v) (H'.apiLoad X d v) :=
  liveAlike_map (P := fun H => ∀ o ∈ H.refs (.api d), Q o) (fun k v H H' h hr =>
    ⟨h.apiAssign X hd hr k v, by rw [(quietApi_assign X d k v H).refs]; exact hr⟩) v h hr

theorem Alike.libAssign (X : Xyml) (h : Alike Q H H') {d : Addr} (hd : Q (.lib d))
    (hr : ∀ o ∈ H.refs (.lib d), Q o) (k v : Node) :
    LiveAlike Q (H.libAssign X d k v) (H'.libAssign X d k v) := by
  have he := h.lib d hd
  simp only [Heap.refs, List.forall_mem_cons] at hr
  obtain ⟨r1, r2, r3, r4, r5, r6, r7, r8, -⟩ := hr
  unfold Heap.libAssign
  dsimp only
  rw [he]
  repeat' split
  all_goals first
    | exact ⟨h, rfl⟩
    | exact liveAlike_store h _ fun s _ => h.setLibV hd _
    | exact h.loadUm (by assumption) v
    | exact h.loadSm (by assumption) v
    | exact h.loadAm (by assumption) v
    | exact h.loadTm X (by assumption) v
    | exact liveAlike_store h _ fun s _ => h.putXm r8 s v
    | exact liveAlike_store h _ fun s _ => h.putAm r5 _ s

theorem Alike.libLoad (X : Xyml) (h : Alike Q H H') {d : Addr} (hd : Q (.lib d))
    (hr : ∀ o ∈ H.refs (.lib d), Q o) (v : Node) :
    LiveAlike Q (H.libLoad X d v) (H'.libLoad X d v) :=
  liveAlike_map (P := fun H => ∀ o ∈ H.refs (.lib d), Q o) (fun k v H H' h hr =>
    ⟨h.libAssign X hd hr k v, by rw [(quietLib_assign X d k v H).refs]; exact hr⟩) v h hr

theorem Alike.baseAssign (h : Alike Q H H') (a : Addr) (set : String → TypeObj) {x : Addr}
    (hx : Q (.xm x)) (k v : Node) :
    LiveAlike Q (H.baseAssign a set x k v) (H'.baseAssign a set x k v) := by
  unfold Heap.baseAssign
  split
  · exact liveAlike_store h _ fun s _ => h.setTy a _
  · exact ⟨h.putXm hx _ v, rfl⟩

theorem Alike.typeAssign (X : Xyml) (h : Alike Q H H') {a : Addr} (ha : Q (.ty a))
    (hm : ∀ o ∈ H.maps a, Q o) (k v : Node) :
    LiveAlike Q (H.typeAssign X a k v) (H'.typeAssign X a k v) := by
  have he := h.ty a ha
  unfold Heap.typeAssign
  rw [he]
  unfold Heap.maps at hm
  cases hty : H.ty a with
  | basic i s x =>
    rw [hty] at hm
    exact h.baseAssign a _ (hm _ (List.mem_singleton.mpr rfl)) k v
  | ext hd p b f ps it =>
    rw [hty] at hm
    simp only [List.forall_mem_append, List.forall_mem_cons] at hm
    obtain ⟨⟨r1, r2, r3, r4, -⟩, r5⟩ := hm
    dsimp only
    split
    · exact h.loadFm X r4 v
    split
    · cases ps with
      | none => exact ⟨h, rfl⟩
      | some m => exact h.loadPm X (r5 _ (by simp)) v
    split
    · refine liveAlike_store h _ fun t _ => ?_
      have ht := h.storeT t
      rw [ht.1]
      exact ht.2.setTy a _
    split
    · refine liveAlike_store h _ fun e _ => ?_
      rw [h.next]
      exact (h.storeEx e).setTy a _
    split
    · exact h.loadEm X _ r3 v
    split
    · exact ⟨h.setTy a _, rfl⟩
    split
    · exact liveAlike_store h _ fun s _ => h.setTy a _
    split
    · exact liveAlike_store h _ fun s _ => h.setTy a _
    unfold Heap.extAssign
    split
    · exact liveAlike_store h _ fun s _ => h.setTy a _
    split
    · exact liveAlike_store h _ fun s _ => h.setTy a _
    split
    · refine liveAlike_store h _ fun e _ => ?_
      rw [h.next]
      exact (h.storeXo e).setTy a _
    split
    · split
      · exact ⟨h, rfl⟩
      split
      · exact liveAlike_store h _ fun s _ => h.putAm r2 _ s
      · exact h.baseAssign a _ r1 k v
    · exact h.baseAssign a _ r1 k v

theorem Alike.typeLoad (X : Xyml) (h : Alike Q H H') {a : Addr} (hlt : a < H.next) (ha : Q (.ty a))
    (hm : ∀ o ∈ H.maps a, Q o) (v : Node) :
    LiveAlike Q (H.typeLoad X a v) (H'.typeLoad X a v) := by
  unfold Heap.typeLoad
  rw [h.ty a ha]
  split
  · exact ⟨h.setTy a _, rfl⟩
  · cases v with
    | seq t l => exact ⟨h, rfl⟩
    | scalar t s => exact ⟨h, rfl⟩
    | map ps =>
      refine liveAlike_pairs (P := fun H => a < H.next ∧ ∀ o ∈ H.maps a, Q o)
        (fun k v H H' h hP => ?_) ps h ⟨hlt, hm⟩
      have hl := loads_typeAssign (k := k) X hP.1 (List.mem_singleton.mpr rfl) v
      refine ⟨h.typeAssign X ha hP.2 k v, Nat.lt_of_lt_of_le hP.1 hl.quiet.only.next, ?_⟩
      rw [kept_maps hl.kept]
      exact hP.2

/-! ### Steps and programs -/

/-- A step has the same effect in heaps that have the same objects where it touches them. -/
theorem Alike.act (X : Xyml) (h : Alike Q H H') {s : Act} (hl : H.Legal s)
    (ht : ∀ o ∈ H.touches s, Q o) : Alike Q (H.act X s) (H'.act X s) := by
  cases s with
  | newType k => exact (h.storeT _).2
  | parseType v =>
    simp only [Heap.act]
    split
    · exact (h.storeT _).2
    · exact h
  | newMap => exact h.newMap
  | newExample k => exact h.storeEx _
  | newXML => exact h.storeXo _
  | newApi => exact h.newApi
  | newLib => exact h.newLib
  | onType a c => exact h.typeCall (ht _ (List.mem_singleton.mpr rfl)) c
  | edit e =>
    cases e with
    | tm m f => exact { h with tm := h.tm.upd rfl (by rw [h.tm m (ht _ (List.mem_singleton.mpr rfl))]) }
    | fm m f => exact { h with fm := h.fm.upd rfl (by rw [h.fm m (ht _ (List.mem_singleton.mpr rfl))]) }
    | am m f => exact { h with am := h.am.upd rfl (by rw [h.am m (ht _ (List.mem_singleton.mpr rfl))]) }
    | em m f => exact { h with em := h.em.upd rfl (by rw [h.em m (ht _ (List.mem_singleton.mpr rfl))]) }
    | ex m f => exact { h with ex := h.ex.upd rfl (by rw [h.ex m (ht _ (List.mem_singleton.mpr rfl))]) }
    | xo m f => exact { h with xo := h.xo.upd rfl (by rw [h.xo m (ht _ (List.mem_singleton.mpr rfl))]) }
    | xm m f => exact { h with xm := h.xm.upd rfl (by rw [h.xm m (ht _ (List.mem_singleton.mpr rfl))]) }
    | sm m f => exact { h with sm := h.sm.upd rfl (by rw [h.sm m (ht _ (List.mem_singleton.mpr rfl))]) }
    | um m f => exact { h with um := h.um.upd rfl (by rw [h.um m (ht _ (List.mem_singleton.mpr rfl))]) }
  | onApi d op =>
    simp only [Heap.act]
    split
    · exact h.setApiV (ht _ (List.mem_singleton.mpr rfl)) _
    · exact h
  | setApi d op => exact h.setApi (ht _ (List.mem_singleton.mpr rfl)) op
  | loadApi d v =>
    exact (h.apiLoad X (ht _ List.mem_cons_self) (fun o ho => ht _ (List.mem_cons_of_mem _ ho)) v).1
  | onLib d op =>
    simp only [Heap.act]
    split
    · exact h.setLibV (ht _ (List.mem_singleton.mpr rfl)) _
    · exact h
  | setLib d op => exact h.setLib (ht _ (List.mem_singleton.mpr rfl)) op
  | loadLib d v =>
    exact (h.libLoad X (ht _ List.mem_cons_self) (fun o ho => ht _ (List.mem_cons_of_mem _ ho)) v).1
  | loadType a v =>
    exact (h.typeLoad X hl (ht _ List.mem_cons_self)
      (fun o ho => ht _ (List.mem_cons_of_mem _ ho)) v).1
  | loadEx m v =>
    exact { h with ex := h.ex.upd rfl (by rw [h.ex m (ht _ (List.mem_singleton.mpr rfl))]) }
  | loadXML m v =>
    exact { h with xo := h.xo.upd rfl (by rw [h.xo m (ht _ (List.mem_singleton.mpr rfl))]) }

theorem Alike.run (X : Xyml) (ss : List Act) : ∀ {H H' : Heap}, Alike Q H H' → H.LegalAll X ss →
    (∀ o ∈ H.touchesAll X ss, Q o) → Alike Q (H.run X ss) (H'.run X ss) := by
  induction ss with
  | nil => intro H H' h _ _; exact h
  | cons s ss ih =>
    intro H H' h hl ht
    simp only [Heap.touchesAll, List.forall_mem_append] at ht
    exact ih (h.act X hl.1 ht.1) hl.2 ht.2

end
end Verif.Doc
