import Verif.Doc.HeapExact
import Verif.Doc.HeapSec

/-!
# The parts of data type objects

A part is replaced only by its setter, and shows what the object that the getter returns shows.
-/

namespace Verif.Doc

theorem get_same {H H' : Heap} {a : Addr} (h : H.ty a = H'.ty a) (s : TypeSec) :
    H'.get a s = H.get a s := by simp only [Heap.get, h]

/-- The setters that take no pointer leave all parts as they are. -/
theorem apply_get {H : Heap} {a : Addr} {op : TypeOp} {o : TypeObj} (h : (H.ty a).apply op = some o)
    (s : TypeSec) : ({ H with ty := upd H.ty a o } : Heap).get a s = H.get a s := by
  cases hty : H.ty a with
  | basic i x m =>
    rw [hty] at h
    cases op <;> cases h
    simp only [Heap.get, upd_self, hty]
    cases s <;> rfl
  | ext hd p b f ps it =>
    rw [hty] at h
    simp only [TypeObj.apply] at h
    split at h
    · cases h
      cases s <;> simp only [Heap.get, upd_self, hty] <;> cases b <;> rfl
    · obtain ⟨b', hb, rfl⟩ := Option.map_eq_some_iff.mp h
      cases b <;> cases op <;> cases hb <;> cases s <;> simp only [Heap.get, upd_self, hty]

/-- A setter replaces its own part only. -/
theorem setPtr_get_other {H H' : Heap} {a : Addr} {op : PtrOp} (h : H.setPtr a op = some H')
    {s : TypeSec} (hs : op.part ≠ s) : H'.get a s = H.get a s := by
  cases hty : H.ty a with
  | basic i x m => cases op <;> simp only [Heap.setPtr, hty] at h <;> cases h
  | ext hd p b f ps it =>
    cases op with
    | setItems m =>
      cases b <;> simp only [Heap.setPtr, hty] at h <;> cases h
      cases s <;> simp only [Heap.get, hty, upd_self]
      exact absurd rfl hs
    | setProperties m =>
      cases b <;> simp only [Heap.setPtr, hty] at h <;> cases h
      cases s <;> simp only [Heap.get, hty, upd_self]
      exact absurd rfl hs
    | _ m =>
      simp only [Heap.setPtr, hty] at h; cases h
      cases s <;> first
        | exact absurd rfl hs
        | (simp only [Heap.get, hty, upd_self]; done)
        | (cases b <;> simp only [Heap.get, hty, upd_self])

/-- It installs the object it is given, or a new empty map. -/
theorem setPtr_get {H H' : Heap} {a : Addr} {op : PtrOp} (h : H.setPtr a op = some H') :
    (∀ o, op.arg = some o → H'.get a op.part = some o) ∧
      (op.arg = none → (∀ n, (H'.get a op.part).bind (H'.partVal n) = op.part.unset) ∧
        ∀ o, H'.get a op.part = some o → o.addr = H.next) := by
  cases hty : H.ty a with
  | basic i x m => cases op <;> simp only [Heap.setPtr, hty] at h <;> cases h
  | ext hd p b f ps it =>
    cases op with
    | setItems m =>
      cases b <;> simp only [Heap.setPtr, hty] at h <;> cases h
      cases m <;> simp [Heap.get, upd_self, PtrOp.arg, PtrOp.part, TypeSec.unset]
    | setProperties m =>
      cases b <;> simp only [Heap.setPtr, hty] at h <;> cases h
      cases m <;> simp [Heap.get, upd_self, PtrOp.arg, PtrOp.part, TypeSec.unset, Heap.pick,
        Heap.partVal, freshIn_none, Heap.typeMap, followMap, OM.empty, Obj.addr]
    | _ m =>
      simp only [Heap.setPtr, hty] at h; cases h
      cases m <;> simp [Heap.get, upd_self, PtrOp.arg, PtrOp.part, TypeSec.unset, Heap.pick,
        Heap.partVal, freshIn_none, Heap.facetMap, Heap.exMap, followMap, OM.empty, Obj.addr]

/-- A step replaces a part only by its setter. -/
theorem act_get (X : Xyml) {H : Heap} {c : Act} (hl : H.Legal c) {a : Addr} (ha : a < H.next)
    {s : TypeSec} (hn : ¬ c.replaces a s) : (H.act X c).get a s = H.get a s := by
  have hq := quiet_act X hl
  by_cases ht : Obj.ty a ∈ H.touches c
  · cases c with
    | onType b c =>
      have : a = b := by simpa [Heap.touches] using ht
      subst this
      cases c with
      | plain op =>
        simp only [Heap.act, Heap.typeCall]
        split
        · cases ho : (H.ty a).apply op with
          | none => rfl
          | some o => exact apply_get ho s
        · rfl
      | ptr op =>
        simp only [Heap.act, Heap.typeCall]
        cases ho : H.setPtr a op with
        | none => rfl
        | some H' => exact setPtr_get_other ho fun e => hn ⟨rfl, e⟩
    | edit e => cases e <;> simp [Heap.touches] at ht
    | onApi d op => simp [Heap.touches] at ht
    | setApi d op => simp [Heap.touches] at ht
    | loadApi d v => simp [Heap.touches, Heap.refs] at ht
    | onLib d op => simp [Heap.touches] at ht
    | setLib d op => simp [Heap.touches] at ht
    | loadLib d v => simp [Heap.touches, Heap.refs] at ht
    | loadType b v =>
      have : a = b := by
        rcases List.mem_cons.mp ht with h | h
        · exact Obj.ty.inj h
        · cases hty : H.ty b <;> simp [Heap.maps, hty] at h
      subst this
      refine (loads_typeLoad X a v H ha).get s fun n hm hs => hn ?_
      cases v with
      | map ps =>
        obtain ⟨p, hp, rfl⟩ := List.mem_map.mp hm
        exact ⟨rfl, p, hp, hs⟩
      | scalar t s => cases hm
      | seq t l => cases hm
    | loadEx m v => simp [Heap.touches] at ht
    | loadXML m v => simp [Heap.touches] at ht
    | _ => cases ht
  · exact get_same (hq.only.same (.ty a) ha ht) s

theorem run_get {X : Xyml} {H : Heap} {ss : List Act} (hl : H.LegalAll X ss) {a : Addr}
    (ha : a < H.next) {s : TypeSec} (hn : ∀ c ∈ ss, ¬ c.replaces a s) :
    (H.run X ss).get a s = H.get a s := by
  induction ss generalizing H with
  | nil => rfl
  | cons c ss ih =>
    rw [run_cons, ih hl.2 (Nat.lt_of_lt_of_le ha (quiet_act X hl.1).only.next)
      fun c' hm => hn c' (List.mem_cons_of_mem _ hm)]
    exact act_get X hl.1 ha (hn c List.mem_cons_self)

/-- A part of the value is what the object that the getter returns shows. -/
theorem val_part {H : Heap} {n : Nat} {a : Addr} {t : DT} (hv : H.val (n + 1) a = some t)
    {s : TypeSec} {o : Obj} (hg : H.get a s = some o) : t.part s = H.partVal n o := by
  cases hty : H.ty a with
  | basic i x m =>
    simp only [Heap.val, Heap.view, hty] at hv
    cases hv
    cases s <;> simp only [Heap.get, hty] at hg <;> cases hg
    rfl
  | ext hd p b f ps it =>
    simp only [Heap.val, Heap.view, hty] at hv
    obtain ⟨fs, hf, hv⟩ := Option.bind_eq_some_iff.mp hv
    obtain ⟨ps', hp, hv⟩ := Option.bind_eq_some_iff.mp hv
    obtain ⟨it', hi, rfl⟩ := Option.map_eq_some_iff.mp hv
    have hf' : H.facetMap n f = some fs := hf
    cases s <;> simp only [Heap.get, hty] at hg
    · cases hg; rfl
    · cases hg; rfl
    · cases hg; rfl
    · cases hg; simp only [DT.part, Heap.partVal, hf', Option.map_some]
    · cases b <;> simp only [reduceCtorEq] at hg
      obtain ⟨m, rfl, rfl⟩ := Option.map_eq_some_iff.mp hg
      have hp' : H.typeMap n m = some ps' := hp
      simp only [DT.part, Heap.partVal, hp', Option.map_some]
    · obtain ⟨m, hm, rfl⟩ := Option.map_eq_some_iff.mp hg
      simp only [DT.part, Heap.partVal, Heap.hdr, hm, Option.map_some]
    · obtain ⟨m, hm, rfl⟩ := Option.map_eq_some_iff.mp hg
      simp only [DT.part, Heap.partVal, Heap.hdr, hm, Option.map_some]
    · cases b <;> simp only [reduceCtorEq] at hg
      obtain ⟨m, rfl, rfl⟩ := Option.map_eq_some_iff.mp hg
      obtain ⟨u, hu, rfl⟩ := Option.map_eq_some_iff.mp hi
      simp only [DT.part, Heap.partVal, hu, Option.map_some]

end Verif.Doc
