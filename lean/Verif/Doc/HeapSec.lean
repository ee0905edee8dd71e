import Verif.Doc.HeapGrow

/-! # Lemmas about sections of documents -/

namespace Verif.Doc
open Relation

/-- The document object of a holder, without the values in it. -/
theorem sec_api {H H' : Heap} {d d' : Addr} (w : APISpec)
    (h : H'.api d' = { H.api d with v := w }) (s : Sec) :
    H'.sec (.api d') s = H.sec (.api d) s := by
  cases s <;> simp only [Heap.sec, h]

theorem sec_lib {H H' : Heap} {d d' : Addr} (w : Library)
    (h : H'.lib d' = { H.lib d with v := w }) (s : Sec) :
    H'.sec (.lib d') s = H.sec (.lib d) s := by
  cases s <;> simp only [Heap.sec, h]

theorem sec_same {H H' : Heap} {x : Holder} (h : Same H H' x.obj) (s : Sec) :
    H'.sec x s = H.sec x s := by
  cases x with
  | api d => exact sec_api (H.api d).v (show H.api d = H'.api d from h).symm s
  | lib d => exact sec_lib (H.lib d).v (show H.lib d = H'.lib d from h).symm s

/-- A step replaces a section only by its setter. -/
theorem act_sec (X : Xyml) {H : Heap} {c : Act} (hl : H.Legal c) {x : Holder}
    (hx : x.obj.addr < H.next) {s : Sec} (hn : ∀ m, setSec x s m ≠ some c) :
    (H.act X c).sec x s = H.sec x s := by
  have hq := quiet_act X hl
  by_cases ht : x.obj ∈ H.touches c
  · cases c with
    | onApi d op =>
      have : x = .api d := by
        cases x with
        | api e => simpa [Heap.touches, Holder.obj] using ht
        | lib e => simp [Heap.touches, Holder.obj] at ht
      subst this
      simp only [Heap.act]
      split
      · exact sec_api _ (upd_self _ _ _) s
      · rfl
    | onLib d op =>
      have : x = .lib d := by
        cases x with
        | lib e => simpa [Heap.touches, Holder.obj] using ht
        | api e => simp [Heap.touches, Holder.obj] at ht
      subst this
      simp only [Heap.act]
      split
      · exact sec_lib _ (upd_self _ _ _) s
      · rfl
    | loadApi d v =>
      have : x = .api d := by
        cases x with
        | api e => simpa [Heap.touches, Holder.obj, Heap.refs] using ht
        | lib e => simp [Heap.touches, Holder.obj, Heap.refs] at ht
      subst this
      obtain ⟨w, hw⟩ := (quietApi_load X d v H).ptrs
      exact sec_api w hw s
    | loadLib d v =>
      have : x = .lib d := by
        cases x with
        | lib e => simpa [Heap.touches, Holder.obj, Heap.refs] using ht
        | api e => simp [Heap.touches, Holder.obj, Heap.refs] at ht
      subst this
      obtain ⟨w, hw⟩ := (quietLib_load X d v H).ptrs
      exact sec_lib w hw s
    | setApi d op =>
      have : x = .api d := by
        cases x with
        | api e => simpa [Heap.touches, Holder.obj] using ht
        | lib e => simp [Heap.touches, Holder.obj] at ht
      subst this
      cases op <;> cases s <;>
        first
          | (simp only [Heap.act, Heap.setApi, Heap.sec, upd_self]; done)
          | exact absurd rfl (hn _)
    | setLib d op =>
      have : x = .lib d := by
        cases x with
        | lib e => simpa [Heap.touches, Holder.obj] using ht
        | api e => simp [Heap.touches, Holder.obj] at ht
      subst this
      cases op <;> cases s <;>
        first
          | (simp only [Heap.act, Heap.setLib, Heap.sec, upd_self]; done)
          | exact absurd rfl (hn _)
    | edit e => cases x <;> cases e <;> simp [Heap.touches, Holder.obj] at ht
    | onType a c => cases x <;> simp [Heap.touches, Holder.obj] at ht
    | loadType a v =>
      have hm : ∀ y ∈ H.maps a, y ≠ x.obj := fun y hy e => by
        subst e
        cases hty : H.ty a <;> cases x <;> simp [Heap.maps, hty, Holder.obj] at hy
      rcases List.mem_cons.mp ht with h | h
      · cases x <;> cases h
      · exact absurd rfl (hm _ h)
    | loadEx m v => cases x <;> simp [Heap.touches, Holder.obj] at ht
    | loadXML m v => cases x <;> simp [Heap.touches, Holder.obj] at ht
    | _ => cases ht
  · exact sec_same (hq.only.same _ hx ht) s

theorem run_sec {X : Xyml} {H : Heap} {ss : List Act} (hl : H.LegalAll X ss) {x : Holder}
    (hx : x.obj.addr < H.next) {s : Sec} (hn : ∀ m c, setSec x s m = some c → c ∉ ss) :
    (H.run X ss).sec x s = H.sec x s := by
  induction ss generalizing H with
  | nil => rfl
  | cons c ss ih =>
    rw [run_cons, ih hl.2 (Nat.lt_of_lt_of_le hx (quiet_act X hl.1).only.next)
      fun m c' h hm => hn m c' h (List.mem_cons_of_mem _ hm)]
    exact act_sec X hl.1 hx fun m h => hn m c h List.mem_cons_self

/-- What a map shows. -/
def Heap.mapVal (H : Heap) (n : Nat) : Obj → Option SecVal
  | .tm m => (followMap (H.val n) (H.tm m)).map .types
  | .um m => some (.nodes (H.um m))
  | .am m => some (.anns (H.am m))
  | .sm m => some (.strings (H.sm m))
  | .xm m => some (.any (H.xm m))
  | _ => none

theorem secVal_mapVal {H : Heap} {n : Nat} {x : Holder} {s : Sec} {v : SecVal}
    (h : H.secVal n x s = some v) : ∃ o, H.sec x s = some o ∧ H.mapVal n o = some v := by
  cases x with
  | api d =>
    obtain ⟨a, ha, rfl⟩ := Option.map_eq_some_iff.mp h
    obtain ⟨ts, hts, rfl⟩ := Option.map_eq_some_iff.mp ha
    cases s <;> refine ⟨_, rfl, ?_⟩ <;> first
      | rfl
      | (simp only [Heap.mapVal, hts]; rfl)
  | lib d =>
    obtain ⟨a, ha, h⟩ := Option.bind_eq_some_iff.mp h
    obtain ⟨ts, hts, rfl⟩ := Option.map_eq_some_iff.mp ha
    cases s <;> first
      | (cases h; done)
      | (cases h; refine ⟨_, rfl, ?_⟩; first
          | rfl
          | (simp only [Heap.mapVal, hts]; rfl))

/-- Nothing points to a document. -/
theorem reaches_doc {H : Heap} {x y : Holder} (h : H.Reaches x.obj y.obj) : y = x := by
  rcases ReflTransGen.cases_tail h with h | ⟨z, _, hz⟩
  · cases x <;> cases y <;> simp_all [Holder.obj]
  · exfalso
    cases y with
    | api d =>
      cases z with
      | ty a =>
        simp only [Heap.Points, Heap.refs] at hz
        split at hz <;> simp [Holder.obj] at hz
      | _ => simp [Heap.Points, Heap.refs, Holder.obj] at hz
    | lib d =>
      cases z with
      | ty a =>
        simp only [Heap.Points, Heap.refs] at hz
        split at hz <;> simp [Holder.obj] at hz
      | _ => simp [Heap.Points, Heap.refs, Holder.obj] at hz

end Verif.Doc
