import Verif.Doc.HeapOwn

/-! # Lemmas: steps on documents -/

namespace Verif.Doc
open Relation

theorem spec_step {V : Type} (op : OMap.Op String V) (d : List (String × V)) :
    OMap.Spec.step op d = OMap.Spec.answer op d := by
  unfold OMap.Spec.step
  split
  · exact if_pos rfl
  · rfl

/-- The entries after a call on a map. -/
theorem call_mem {V : Type} {m : OM String V} {op : OMap.Op String V} {e : String × V}
    (h : e ∈ (m.call op).ents) : e ∈ m.ents ∨ e.2 ∈ opArg op := by
  have hput : ∀ k v, e ∈ OMap.Spec.put k v m.ents → e ∈ m.ents ∨ e.2 = v := by
    intro k v h
    unfold OMap.Spec.put OMap.Spec.remove at h
    rcases List.mem_append.mp h with h | h
    · exact Or.inl (List.mem_filter.mp h).1
    · rw [List.mem_singleton.mp h]; exact Or.inr rfl
  have hrep : ∀ k v, e ∈ OMap.Spec.replace k v m.ents → e ∈ m.ents ∨ e.2 = v := by
    intro k v h
    unfold OMap.Spec.replace at h
    obtain ⟨x, hx, rfl⟩ := List.mem_map.mp h
    by_cases hk : x.1 == k
    · rw [if_pos hk]; exact Or.inr rfl
    · rw [if_neg hk]; exact Or.inl hx
  simp only [OM.call, spec_step] at h
  cases op with
  | put k v =>
    rcases hput k v h with h | h
    · exact Or.inl h
    · exact Or.inr (by rw [h]; rfl)
  | putIfNotNil k v =>
    cases v with
    | none => exact Or.inl h
    | some v =>
      rcases hput k v h with h | h
      · exact Or.inl h
      · exact Or.inr (by rw [h]; rfl)
  | replaceOrPut k v =>
    simp only [OMap.Spec.answer] at h
    by_cases hm : OMap.Spec.mem k m.ents
    · rw [if_pos hm] at h
      rcases hrep k v h with h | h
      · exact Or.inl h
      · exact Or.inr (by rw [h]; rfl)
    · rw [if_neg hm] at h
      rcases hput k v h with h | h
      · exact Or.inl h
      · exact Or.inr (by rw [h]; rfl)
  | replaceIfExists k v =>
    rcases hrep k v h with h | h
    · exact Or.inl h
    · exact Or.inr (by rw [h]; rfl)
  | delete k => exact Or.inl (List.mem_filter.mp h).1
  | _ => exact Or.inl h

/-- No data type is a section. -/
theorem sec_ne_ty {H : Heap} {x : Holder} {s : Obj} (hs : s ∈ H.refs x.obj) (a : Addr) :
    s ≠ .ty a := by
  rintro rfl
  cases x <;> simp [Heap.refs, Holder.obj] at hs

/-- A new section. -/
theorem own_fresh {H H' : Heap} {x : Holder} (hw : H.Closed) (ho : H.Own x) {s : Obj}
    (hs : H.next ≤ s.addr) (hr : ∀ o, o ≠ x.obj → o ≠ s → H'.refs o = H.refs o)
    (he : H'.refs s = []) (hx : ∀ o ∈ H'.refs x.obj, o = s ∨ o ∈ H.refs x.obj)
    (hnd : (H'.refs x.obj).Nodup) : H'.Own x := by
  have hre : ∀ y, H'.Reaches x.obj y → y = s ∨ H.Reaches x.obj y := by
    intro y hy
    induction hy with
    | refl => exact Or.inr .refl
    | @tail y z _ hp ih =>
      by_cases hys : y = s
      · subst hys
        rw [Heap.Points, he] at hp
        cases hp
      · have ih := ih.resolve_left hys
        by_cases hyx : y = x.obj
        · subst hyx
          rcases hx z hp with h | h
          · exact Or.inl h
          · exact Or.inr (.single h)
        · rw [Heap.Points, hr y hyx hys] at hp
          exact Or.inr (ih.tail hp)
  refine ⟨hnd, fun s' hs' o' hro hpt => ?_⟩
  by_contra hne
  have hos : o' ≠ s := by
    rintro rfl
    rw [Heap.Points, he] at hpt
    cases hpt
  rw [Heap.Points, hr o' hne hos] at hpt
  rcases hx s' hs' with rfl | h
  · exact absurd (hw _ _ hpt) (Nat.not_lt.mpr hs)
  · exact hne (ho.2 s' h o' ((hre o' hro).resolve_left hos) hpt)

/-- A call on the types of a document. -/
theorem own_types {H : Heap} {x : Holder} (ho : H.Own x) {m : Addr}
    {op : OMap.Op String Addr} (harg : ∀ u ∈ opArg op, ∀ s ∈ H.refs x.obj, ¬ H.Reaches (.ty u) s) :
    (H.edit (.tm m fun y => y.call op)).Own x := by
  have hrx : (H.edit (.tm m fun y => y.call op)).refs x.obj = H.refs x.obj := by cases x <;> rfl
  have hr : ∀ o, o ≠ .tm m → (H.edit (.tm m fun y => y.call op)).refs o = H.refs o := by
    intro o ho
    cases o with
    | tm a =>
      have : a ≠ m := fun e => ho (by rw [e])
      simp only [Heap.refs, Heap.edit, upd_ne _ _ this]
    | _ => rfl
  have hm : ∀ y, (H.edit (.tm m fun y => y.call op)).Points (.tm m) y →
      H.Points (.tm m) y ∨ ∃ u ∈ opArg op, y = .ty u := by
    intro y hy
    simp only [Heap.Points, Heap.refs, Heap.edit, upd_self, List.mem_map] at hy ⊢
    obtain ⟨e, he, rfl⟩ := hy
    rcases call_mem he with h | h
    · exact Or.inl ⟨e, h, rfl⟩
    · exact Or.inr ⟨_, h, rfl⟩
  have hre : ∀ y, (H.edit (.tm m fun y => y.call op)).Reaches x.obj y →
      H.Reaches x.obj y ∨ ∃ u ∈ opArg op, H.Reaches (.ty u) y := by
    intro y hy
    induction hy with
    | refl => exact Or.inl .refl
    | @tail y z _ hp ih =>
      have hp : H.Points y z ∨ ∃ u ∈ opArg op, z = .ty u := by
        by_cases hy : y = .tm m
        · subst hy; exact hm z hp
        · rw [Heap.Points, hr y hy] at hp; exact Or.inl hp
      rcases hp with hp | ⟨u, hu, rfl⟩
      · rcases ih with ih | ⟨u, hu, ih⟩
        · exact Or.inl (ih.tail hp)
        · exact Or.inr ⟨u, hu, ih.tail hp⟩
      · exact Or.inr ⟨u, hu, .refl⟩
  refine ⟨by rw [hrx]; exact ho.1, fun s hs o' hro hpt => ?_⟩
  rw [hrx] at hs
  have hpt : H.Points o' s := by
    by_cases h : o' = .tm m
    · subst h
      rcases hm s hpt with h | ⟨u, _, h⟩
      · exact h
      · exact absurd h (sec_ne_ty hs u)
    · rw [Heap.Points, hr o' h] at hpt
      exact hpt
  rcases hre o' hro with h | ⟨u, hu, h⟩
  · exact ho.2 s hs o' h hpt
  · exact absurd (h.tail hpt) (harg u hu s hs)

/-- What the types show after it. -/
theorem call_typeMap {H : Heap} (hw : H.Closed) {x : Holder} (ho : H.Own x) {m : Addr}
    (hp : .tm m ∈ H.refs x.obj) {n : Nat} {ts : OM String DT}
    (hts : followMap (H.val n) (H.tm m) = some ts) {op : OMap.Op String Addr}
    (hl : H.Legal (.edit (.tm m fun y => y.call op)))
    (harg : ∀ u ∈ opArg op, u < H.next ∧ ∀ s ∈ H.refs x.obj, ¬ H.Reaches (.ty u) s)
    {op' : OMap.Op String DT} (hop : followOp (H.val n) op = some op') :
    followMap ((H.edit (.tm m fun y => y.call op)).val n)
      ((H.edit (.tm m fun y => y.call op)).tm m) = some (ts.call op') := by
  have hq : Only [.tm m] H (H.edit (.tm m fun x => x.call op)) := (quiet_tm H m hl.2).only
  have e1 : followMap (Heap.val (H.edit (.tm m fun x => x.call op)) n) (H.tm m) = some ts := by
    rw [← hts]
    refine followMap_congr fun e he =>
      (sameFrom_val n (docOwned_kept' hw (ho.2 _ hp) hq hp ?_)).symm
    exact List.mem_map.mpr ⟨e, he, rfl⟩
  have e2 : followOp (Heap.val (H.edit (.tm m fun x => x.call op)) n) op = some op' := by
    rw [← hop]
    refine followOp_congr fun u hu => (sameFrom_val n (only_sameFrom hw hq (harg u hu).1 ?_)).symm
    intro y hy
    rw [List.mem_singleton.mp hy]
    exact (harg u hu).2 _ hp
  have := followMap_call e1 e2
  simpa only [Heap.edit, upd_self] using this

/-- A section is replaced by a new one. -/
theorem own_set {H H' : Heap} {x : Holder} (hw : H.Closed) (ho : H.Own x) {s : Obj}
    (hs : s.addr = H.next) (hr : ∀ o, o ≠ x.obj → o ≠ s → H'.refs o = H.refs o)
    (he : H'.refs s = []) {i : Nat} (hx : H'.refs x.obj = (H.refs x.obj).set i s) : H'.Own x := by
  refine own_fresh hw ho (Nat.le_of_eq hs.symm) hr he (fun o hm => ?_) ?_
  · rw [hx] at hm
    exact (List.mem_or_eq_of_mem_set hm).symm
  · rw [hx]
    exact ho.1.set fun hm => absurd (hw _ _ hm) (by rw [hs]; exact Nat.lt_irrefl _)

/-! ### API documents -/

/-- A call on the types. -/
theorem ApiSim.types_call {d : Addr} {H : Heap} {s : APISpec} (h : ApiSim d H s) {n : Nat}
    (hn : H.apiVal n d = some s) {op : OMap.Op String Addr}
    (hl : H.Legal (.edit (.tm (H.api d).types fun y => y.call op)))
    (harg : ∀ u ∈ opArg op, u < H.next ∧ ∀ o ∈ H.refs (.api d), ¬ H.Reaches (.ty u) o)
    {op' : OMap.Op String DT} (hop : followOp (H.val n) op = some op') :
    ApiSim d (H.edit (.tm (H.api d).types fun y => y.call op))
      { s with types := s.types.call op' } := by
  obtain ⟨ts, hts, rfl⟩ := Option.map_eq_some_iff.mp hn
  refine ⟨(quiet_edit hl).closed h.closed, h.lt,
    own_types (x := .api d) h.own fun u hu => (harg u hu).2, n, ?_⟩
  unfold Heap.apiVal
  have := call_typeMap (x := .api d) h.closed h.own (api_points H d) hts hl harg hop
  show (followMap _ ((H.edit (.tm (H.api d).types fun y => y.call op)).tm (H.api d).types)).map _ = _
  rw [this]
  rfl

/-- What a setter with a pointer does. -/
theorem setApi_exact {d : Addr} {H : Heap} (hw : H.Closed) {op : ApiPtrOp}
    (hl : H.Legal (.setApi d op)) {n : Nat} {s : APISpec} (hv : H.apiVal n d = some s) {o : ApiOp}
    (ho : op.deref H n = some o) : (H.setApi d op).apiVal n d = some (s.apply o) := by
  obtain ⟨ts, hts, rfl⟩ := Option.map_eq_some_iff.mp hv
  have hq := (quiet_setApi hl).only
  have hk : ∀ o : Obj, o.addr < H.next → SameFrom H (H.setApi d op) o ∨ o = .api d := by
    intro o ho
    by_cases he : o = .api d
    · exact Or.inr he
    · refine Or.inl (only_sameFrom hw hq ho fun x hx hr => ?_)
      rw [List.mem_singleton.mp hx] at hr
      rcases reflTransGen_iff_eq_or_transGen.mp hr with h | h
      · exact he h.symm
      · exact not_inside_doc (.api d) h
  have hty : ∀ m, m < H.next → (H.setApi d op).typeMap n m = H.typeMap n m := fun m hm =>
    sameFrom_typeMap ((hk (.tm m) hm).resolve_right (by simp)) n
  obtain ⟨h1, h2, h3, h4, h5, h6, h7, h8, h9, h10⟩ := closed_api hw d
  have ne : ∀ {a}, a < H.next → a ≠ H.next := fun h => Nat.ne_of_lt h
  have hown : (H.setApi d op).typeMap n (H.api d).types = some ts := (hty _ h1).trans hts
  cases op with
  | types m =>
    cases m with
    | none =>
      cases ho
      simp only [Heap.apiVal, Heap.setApi, upd_self, Heap.pick, Option.getD_none, freshIn_none,
        followMap, OM.empty, List.mapM_nil]
      simp only [freshIn, Option.pure_def, Option.map_some, Heap.apiWith, upd_self, APISpec.apply,
        orFresh, OM.empty]
    | some m =>
      obtain ⟨y, hy, rfl⟩ := Option.map_eq_some_iff.mp ho
      obtain ⟨us, hus, rfl⟩ := Option.map_eq_some_iff.mp hy
      have := (hty m (hl.2 m rfl)).trans hus
      unfold Heap.apiVal
      rw [show ((H.setApi d (.types (some m))).api d).types = m by
        simp only [Heap.setApi, upd_self, Heap.pick, Option.getD_some]]
      unfold Heap.typeMap at this
      rw [this]
      simp only [Option.map_some, Heap.apiWith, Heap.setApi, upd_self, APISpec.apply, orFresh]
  | traits m =>
    cases ho
    unfold Heap.apiVal
    rw [show ((H.setApi d (.traits m)).api d).types = (H.api d).types by
      simp only [Heap.setApi, upd_self]]
    unfold Heap.typeMap at hown
    rw [hown]
    cases m with
    | none =>
      simp only [Option.map_some, Heap.apiWith, Heap.setApi, upd_self, APISpec.apply, orFresh,
        Heap.pick, Option.getD_none, freshIn, Option.isNone_none, if_true, Option.map_none, upd_ne _ _ (ne h3), upd_ne _ _ (ne h4), upd_ne _ _ (ne h6), upd_ne _ _ (ne h7), upd_ne _ _ (ne h9)]
    | some m =>
      simp only [Option.map_some, Heap.apiWith, Heap.setApi, upd_self, APISpec.apply, orFresh,
        Heap.pick, Option.getD_some, freshIn_some]
  | resourceTypes m =>
    cases ho
    unfold Heap.apiVal
    rw [show ((H.setApi d (.resourceTypes m)).api d).types = (H.api d).types by
      simp only [Heap.setApi, upd_self]]
    unfold Heap.typeMap at hown
    rw [hown]
    cases m with
    | none =>
      simp only [Option.map_some, Heap.apiWith, Heap.setApi, upd_self, APISpec.apply, orFresh,
        Heap.pick, Option.getD_none, freshIn, Option.isNone_none, if_true, Option.map_none, upd_ne _ _ (ne h2), upd_ne _ _ (ne h4), upd_ne _ _ (ne h6), upd_ne _ _ (ne h7), upd_ne _ _ (ne h9)]
    | some m =>
      simp only [Option.map_some, Heap.apiWith, Heap.setApi, upd_self, APISpec.apply, orFresh,
        Heap.pick, Option.getD_some, freshIn_some]
  | annotationTypes m =>
    cases ho
    unfold Heap.apiVal
    rw [show ((H.setApi d (.annotationTypes m)).api d).types = (H.api d).types by
      simp only [Heap.setApi, upd_self]]
    unfold Heap.typeMap at hown
    rw [hown]
    cases m with
    | none =>
      simp only [Option.map_some, Heap.apiWith, Heap.setApi, upd_self, APISpec.apply, orFresh,
        Heap.pick, Option.getD_none, freshIn, Option.isNone_none, if_true, Option.map_none, upd_ne _ _ (ne h2), upd_ne _ _ (ne h3), upd_ne _ _ (ne h6), upd_ne _ _ (ne h7), upd_ne _ _ (ne h9)]
    | some m =>
      simp only [Option.map_some, Heap.apiWith, Heap.setApi, upd_self, APISpec.apply, orFresh,
        Heap.pick, Option.getD_some, freshIn_some]
  | annotations m =>
    cases ho
    unfold Heap.apiVal
    rw [show ((H.setApi d (.annotations m)).api d).types = (H.api d).types by
      simp only [Heap.setApi, upd_self]]
    unfold Heap.typeMap at hown
    rw [hown]
    cases m with
    | none =>
      simp only [Option.map_some, Heap.apiWith, Heap.setApi, upd_self, APISpec.apply, orFresh,
        Heap.pick, Option.getD_none, freshIn, Option.isNone_none, if_true, Option.map_none]
    | some m =>
      simp only [Option.map_some, Heap.apiWith, Heap.setApi, upd_self, APISpec.apply, orFresh,
        Heap.pick, Option.getD_some, freshIn_some]
  | securitySchemes m =>
    cases ho
    unfold Heap.apiVal
    rw [show ((H.setApi d (.securitySchemes m)).api d).types = (H.api d).types by
      simp only [Heap.setApi, upd_self]]
    unfold Heap.typeMap at hown
    rw [hown]
    cases m with
    | none =>
      simp only [Option.map_some, Heap.apiWith, Heap.setApi, upd_self, APISpec.apply, orFresh,
        Heap.pick, Option.getD_none, freshIn, Option.isNone_none, if_true, Option.map_none, upd_ne _ _ (ne h2), upd_ne _ _ (ne h3), upd_ne _ _ (ne h4), upd_ne _ _ (ne h7), upd_ne _ _ (ne h9)]
    | some m =>
      simp only [Option.map_some, Heap.apiWith, Heap.setApi, upd_self, APISpec.apply, orFresh,
        Heap.pick, Option.getD_some, freshIn_some]
  | uses m =>
    cases ho
    unfold Heap.apiVal
    rw [show ((H.setApi d (.uses m)).api d).types = (H.api d).types by
      simp only [Heap.setApi, upd_self]]
    unfold Heap.typeMap at hown
    rw [hown]
    cases m with
    | none =>
      simp only [Option.map_some, Heap.apiWith, Heap.setApi, upd_self, APISpec.apply, orFresh,
        Heap.pick, Option.getD_none, freshIn, Option.isNone_none, if_true, Option.map_none]
    | some m =>
      simp only [Option.map_some, Heap.apiWith, Heap.setApi, upd_self, APISpec.apply, orFresh,
        Heap.pick, Option.getD_some, freshIn_some]

/-- `Unset` of a section keeps the sections apart. -/
theorem own_unsetApi {d : Addr} {H : Heap} (hw : H.Closed) (ho : H.Own (.api d)) {op : ApiPtrOp}
    (hk : H.Keeps (.setApi d op)) : (H.setApi d op).Own (.api d) := by
  cases op with
  | types m =>
    cases hk
    refine own_set (i := 0) (s := .tm H.next) hw ho rfl (fun o h1 h2 => ?_) ?_ ?_
    · cases o with
      | api a =>
        simp only [Heap.refs, Heap.setApi, upd_ne _ _ (show a ≠ d from fun e => h1 (by rw [e]; rfl))]
      | tm a =>
        simp only [Heap.refs, Heap.setApi, freshIn, Option.isNone_none, if_true,
          upd_ne _ _ (show a ≠ H.next from fun e => h2 (by rw [e]))]
      | _ => rfl
    · simp [Heap.refs, Heap.setApi, freshIn, upd_self, OM.empty]
    · simp only [Holder.obj, Heap.refs, Heap.setApi, upd_self, Heap.pick, Option.getD_none]
      rfl
  | traits m =>
    cases hk
    refine own_set (i := 1) (s := .um H.next) hw ho rfl (fun o h1 h2 => ?_) ?_ ?_
    · cases o with
      | api a =>
        simp only [Heap.refs, Heap.setApi, upd_ne _ _ (show a ≠ d from fun e => h1 (by rw [e]; rfl))]
      | _ => rfl
    · rfl
    · simp only [Holder.obj, Heap.refs, Heap.setApi, upd_self, Heap.pick, Option.getD_none]
      rfl
  | resourceTypes m =>
    cases hk
    refine own_set (i := 2) (s := .um H.next) hw ho rfl (fun o h1 h2 => ?_) ?_ ?_
    · cases o with
      | api a =>
        simp only [Heap.refs, Heap.setApi, upd_ne _ _ (show a ≠ d from fun e => h1 (by rw [e]; rfl))]
      | _ => rfl
    · rfl
    · simp only [Holder.obj, Heap.refs, Heap.setApi, upd_self, Heap.pick, Option.getD_none]
      rfl
  | annotationTypes m =>
    cases hk
    refine own_set (i := 3) (s := .um H.next) hw ho rfl (fun o h1 h2 => ?_) ?_ ?_
    · cases o with
      | api a =>
        simp only [Heap.refs, Heap.setApi, upd_ne _ _ (show a ≠ d from fun e => h1 (by rw [e]; rfl))]
      | _ => rfl
    · rfl
    · simp only [Holder.obj, Heap.refs, Heap.setApi, upd_self, Heap.pick, Option.getD_none]
      rfl
  | annotations m =>
    cases hk
    refine own_set (i := 4) (s := .am H.next) hw ho rfl (fun o h1 h2 => ?_) ?_ ?_
    · cases o with
      | api a =>
        simp only [Heap.refs, Heap.setApi, upd_ne _ _ (show a ≠ d from fun e => h1 (by rw [e]; rfl))]
      | _ => rfl
    · rfl
    · simp only [Holder.obj, Heap.refs, Heap.setApi, upd_self, Heap.pick, Option.getD_none]
      rfl
  | securitySchemes m =>
    cases hk
    refine own_set (i := 5) (s := .um H.next) hw ho rfl (fun o h1 h2 => ?_) ?_ ?_
    · cases o with
      | api a =>
        simp only [Heap.refs, Heap.setApi, upd_ne _ _ (show a ≠ d from fun e => h1 (by rw [e]; rfl))]
      | _ => rfl
    · rfl
    · simp only [Holder.obj, Heap.refs, Heap.setApi, upd_self, Heap.pick, Option.getD_none]
      rfl
  | uses m =>
    cases hk
    refine own_set (i := 7) (s := .sm H.next) hw ho rfl (fun o h1 h2 => ?_) ?_ ?_
    · cases o with
      | api a =>
        simp only [Heap.refs, Heap.setApi, upd_ne _ _ (show a ≠ d from fun e => h1 (by rw [e]; rfl))]
      | _ => rfl
    · rfl
    · simp only [Holder.obj, Heap.refs, Heap.setApi, upd_self, Heap.pick, Option.getD_none]
      rfl

/-- One step on an API document. -/
theorem apiStep_sim {X : Xyml} {d : Addr} {H : Heap} {s : APISpec} (h : ApiSim d H s)
    (st : DocStep) : ApiSim d (H.run X (st.acts X H (.api d))) (s.step X st) := by
  have hset : ∀ (op : ApiPtrOp) (o : ApiOp), H.Keeps (.setApi d op) → H.Legal (.setApi d op) →
      (∀ n, op.deref H n = some o) → ApiSim d (H.setApi d op) (s.apply o) := by
    intro op o hk hl hd
    obtain ⟨n, hn⟩ := h.val
    exact ⟨(quiet_setApi hl).closed h.closed, Nat.lt_of_lt_of_le h.lt (quiet_setApi hl).only.next,
      own_unsetApi h.closed h.own hk, n, setApi_exact h.closed hl hn (hd n)⟩
  have hum := h.um
  simp only [List.nodup_cons, List.mem_cons, List.not_mem_nil, or_false, not_or, List.nodup_nil,
    not_false_eq_true, and_true] at hum
  obtain ⟨⟨n1, n2, n3, n4, n5⟩, ⟨n6, n7, n8, n9⟩, ⟨n10, n11, n12⟩, ⟨n13, n14⟩, n15⟩ := hum
  have um : ∀ {m x} {s' : APISpec}, H.Points (.api d) (.um m) →
      (∀ ts, s = H.apiWith d ts → s' = Heap.apiWith { H with um := upd H.um m x } d ts) →
      ApiSim d { H with um := upd H.um m x } s' := fun hp hs =>
    h.leaf hp (by simp) (quiet_um H _).only rfl (refs_um H _ _) rfl hs
  have tcall : ∀ op op', opArg op = none → (∀ n, followOp (H.val n) op = some op') →
      ApiSim d (H.edit (.tm (H.api d).types fun y => y.call op))
        { s with types := s.types.call op' } := by
    intro op op' ha hf
    obtain ⟨n, hn⟩ := h.val
    refine h.types_call hn ⟨(closed_api h.closed d).1, fun e he => ?_⟩ (by simp [ha]) (hf n)
    rcases call_mem he with h' | h'
    · exact h.closed (.tm (H.api d).types) (.ty e.2) (List.mem_map.mpr ⟨e, h', rfl⟩)
    · rw [ha] at h'; cases h'
  cases st with
  | onApi op =>
    show ApiSim d (if op.plain then H.setApiV d fun a => a.apply op else H)
      (if op.plain then s.apply op else s)
    by_cases hp : op.plain
    · rw [if_pos hp, if_pos hp]
      refine h.setV fun ts => ?_
      cases op <;> first
        | (simp only [Heap.apiWith, Heap.setApiV, upd_self, APISpec.apply]; done)
        | cases hp
    · rw [if_neg hp, if_neg hp]; exact h
  | onLib op => exact h
  | unset sec =>
    have hl : ∀ x : Addr, (none : Option Addr) = some x → x < H.next := fun _ h => by cases h
    cases sec with
    | types => exact hset (.types none) (.setTypes none) rfl ⟨h.lt, hl⟩ fun _ => rfl
    | traits => exact hset (.traits none) (.setTraits none) rfl ⟨h.lt, hl⟩ fun _ => rfl
    | resourceTypes =>
      exact hset (.resourceTypes none) (.setResourceTypes none) rfl ⟨h.lt, hl⟩ fun _ => rfl
    | annotationTypes =>
      exact hset (.annotationTypes none) (.setAnnotationTypes none) rfl ⟨h.lt, hl⟩ fun _ => rfl
    | annotations =>
      exact hset (.annotations none) (.setAnnotations none) rfl ⟨h.lt, hl⟩ fun _ => rfl
    | securitySchemes =>
      exact hset (.securitySchemes none) (.setSecuritySchemes none) rfl ⟨h.lt, hl⟩ fun _ => rfl
    | uses => exact hset (.uses none) (.setUses none) rfl ⟨h.lt, hl⟩ fun _ => rfl
    | _ => exact h
  | load v => exact (apiLoad_sim h v).1
  | nodes sec f =>
    cases sec
    case types => exact h
    case traits =>
      refine um (m := (H.api d).traits) (by simp [api_mem]) ?_
      rintro ts rfl
      simp only [Heap.apiWith, APISpec.step, upd_self, upd_ne _ _ (Ne.symm n1), upd_ne _ _ (Ne.symm n2), upd_ne _ _ (Ne.symm n3), upd_ne _ _ (Ne.symm n4), upd_ne _ _ (Ne.symm n5)]
    case resourceTypes =>
      refine um (m := (H.api d).resourceTypes) (by simp [api_mem]) ?_
      rintro ts rfl
      simp only [Heap.apiWith, APISpec.step, upd_self, upd_ne _ _ n1, upd_ne _ _ (Ne.symm n6), upd_ne _ _ (Ne.symm n7), upd_ne _ _ (Ne.symm n8), upd_ne _ _ (Ne.symm n9)]
    case annotationTypes =>
      refine um (m := (H.api d).annotationTypes) (by simp [api_mem]) ?_
      rintro ts rfl
      simp only [Heap.apiWith, APISpec.step, upd_self, upd_ne _ _ n2, upd_ne _ _ n6, upd_ne _ _ (Ne.symm n10), upd_ne _ _ (Ne.symm n11), upd_ne _ _ (Ne.symm n12)]
    case annotations => exact h
    case securitySchemes =>
      refine um (m := (H.api d).securitySchemes) (by simp [api_mem]) ?_
      rintro ts rfl
      simp only [Heap.apiWith, APISpec.step, upd_self, upd_ne _ _ n3, upd_ne _ _ n7, upd_ne _ _ n10, upd_ne _ _ (Ne.symm n13), upd_ne _ _ (Ne.symm n14)]
    case baseURIParameters =>
      refine um (m := (H.api d).baseURIParameters) (by simp [api_mem]) ?_
      rintro ts rfl
      simp only [Heap.apiWith, APISpec.step, upd_self, upd_ne _ _ n4, upd_ne _ _ n8, upd_ne _ _ n11, upd_ne _ _ n13, upd_ne _ _ (Ne.symm n15)]
    case uses => exact h
    case resources =>
      refine um (m := (H.api d).resources) (by simp [api_mem]) ?_
      rintro ts rfl
      simp only [Heap.apiWith, APISpec.step, upd_self, upd_ne _ _ n5, upd_ne _ _ n9, upd_ne _ _ n12, upd_ne _ _ n14, upd_ne _ _ n15]
    case extra => exact h
  | anns f =>
    show ApiSim d (H.edit (.am (H.api d).annotations f)) _
    refine h.leaf (o := .am (H.api d).annotations) (by simp [api_mem]) (by simp)
      (quiet_am H _).only rfl (refs_am H _ _) rfl ?_
    rintro ts rfl
    simp only [Heap.apiWith, Heap.edit, APISpec.step, upd_self]
  | strings f =>
    show ApiSim d (H.edit (.sm (H.api d).uses f)) _
    refine h.leaf (o := .sm (H.api d).uses) (by simp [api_mem]) (by simp)
      (quiet_sm H _).only rfl (refs_sm H _ _) rfl ?_
    rintro ts rfl
    simp only [Heap.apiWith, Heap.edit, APISpec.step, upd_self]
  | extra f =>
    show ApiSim d (H.edit (.xm (H.api d).extra f)) _
    refine h.leaf (o := .xm (H.api d).extra) (by simp [api_mem]) (by simp)
      (quiet_xm H _).only rfl (refs_xm H _ _) rfl ?_
    rintro ts rfl
    simp only [Heap.apiWith, Heap.edit, APISpec.step, upd_self]
  | putType k v =>
    cases hv : hat X v with
    | ok t =>
      have e : H.run X ((DocStep.putType k v).acts X H (.api d)) =
          H.putType (H.api d).types k t := by
        simp only [DocStep.acts, Heap.sec, hv, Heap.run, List.foldl_cons, List.foldl_nil, Heap.act,
          Heap.edit, Heap.putType]
      rw [e]
      simp only [APISpec.step, hv]
      exact h.put k t
    | err e =>
      simp only [DocStep.acts, Heap.sec, hv, Heap.run, List.foldl_cons, List.foldl_nil, Heap.act,
        APISpec.step]
      exact h
    | panic c =>
      simp only [DocStep.acts, Heap.sec, hv, Heap.run, List.foldl_cons, List.foldl_nil, Heap.act,
        APISpec.step]
      exact h
  | dropType k => exact tcall (.delete k) (.delete k) rfl fun _ => rfl
  | orderTypes b => exact tcall (.serializeOrdered b) (.serializeOrdered b) rfl fun _ => rfl

/-! ### Libraries -/

/-- A call on the types. -/
theorem LibSim.types_call {d : Addr} {H : Heap} {s : Library} (h : LibSim d H s) {n : Nat}
    (hn : H.libVal n d = some s) {op : OMap.Op String Addr}
    (hl : H.Legal (.edit (.tm (H.lib d).types fun y => y.call op)))
    (harg : ∀ u ∈ opArg op, u < H.next ∧ ∀ o ∈ H.refs (.lib d), ¬ H.Reaches (.ty u) o)
    {op' : OMap.Op String DT} (hop : followOp (H.val n) op = some op') :
    LibSim d (H.edit (.tm (H.lib d).types fun y => y.call op))
      { s with types := s.types.call op' } := by
  obtain ⟨ts, hts, rfl⟩ := Option.map_eq_some_iff.mp hn
  refine ⟨(quiet_edit hl).closed h.closed, h.lt,
    own_types (x := .lib d) h.own fun u hu => (harg u hu).2, n, ?_⟩
  unfold Heap.libVal
  have := call_typeMap (x := .lib d) h.closed h.own (lib_points H d) hts hl harg hop
  show (followMap _ ((H.edit (.tm (H.lib d).types fun y => y.call op)).tm (H.lib d).types)).map _ = _
  rw [this]
  rfl

/-- What a setter with a pointer does. -/
theorem setLib_exact {d : Addr} {H : Heap} (hw : H.Closed) {op : LibPtrOp}
    (hl : H.Legal (.setLib d op)) {n : Nat} {s : Library} (hv : H.libVal n d = some s) {o : LibOp}
    (ho : op.deref H n = some o) : (H.setLib d op).libVal n d = some (s.apply o) := by
  obtain ⟨ts, hts, rfl⟩ := Option.map_eq_some_iff.mp hv
  have hq := (quiet_setLib hl).only
  have hk : ∀ o : Obj, o.addr < H.next → SameFrom H (H.setLib d op) o ∨ o = .lib d := by
    intro o ho
    by_cases he : o = .lib d
    · exact Or.inr he
    · refine Or.inl (only_sameFrom hw hq ho fun x hx hr => ?_)
      rw [List.mem_singleton.mp hx] at hr
      rcases reflTransGen_iff_eq_or_transGen.mp hr with h | h
      · exact he h.symm
      · exact not_inside_doc (.lib d) h
  have hty : ∀ m, m < H.next → (H.setLib d op).typeMap n m = H.typeMap n m := fun m hm =>
    sameFrom_typeMap ((hk (.tm m) hm).resolve_right (by simp)) n
  obtain ⟨h1, h2, h3, h4, h5, h6, h7, h8⟩ := closed_lib hw d
  have ne : ∀ {a}, a < H.next → a ≠ H.next := fun h => Nat.ne_of_lt h
  have hown : (H.setLib d op).typeMap n (H.lib d).types = some ts := (hty _ h1).trans hts
  cases op with
  | types m =>
    cases m with
    | none =>
      cases ho
      simp only [Heap.libVal, Heap.setLib, upd_self, Heap.pick, Option.getD_none, freshIn_none,
        followMap, OM.empty, List.mapM_nil]
      simp only [freshIn, Option.pure_def, Option.map_some, Heap.libWith, upd_self, Library.apply,
        orFresh, OM.empty]
    | some m =>
      obtain ⟨y, hy, rfl⟩ := Option.map_eq_some_iff.mp ho
      obtain ⟨us, hus, rfl⟩ := Option.map_eq_some_iff.mp hy
      have := (hty m (hl.2 m rfl)).trans hus
      unfold Heap.libVal
      rw [show ((H.setLib d (.types (some m))).lib d).types = m by
        simp only [Heap.setLib, upd_self, Heap.pick, Option.getD_some]]
      unfold Heap.typeMap at this
      rw [this]
      simp only [Option.map_some, Heap.libWith, Heap.setLib, upd_self, Library.apply, orFresh]
  | traits m =>
    cases ho
    unfold Heap.libVal
    rw [show ((H.setLib d (.traits m)).lib d).types = (H.lib d).types by
      simp only [Heap.setLib, upd_self]]
    unfold Heap.typeMap at hown
    rw [hown]
    cases m with
    | none =>
      simp only [Option.map_some, Heap.libWith, Heap.setLib, upd_self, Library.apply, orFresh,
        Heap.pick, Option.getD_none, freshIn, Option.isNone_none, if_true, Option.map_none, upd_ne _ _ (ne h3), upd_ne _ _ (ne h4), upd_ne _ _ (ne h6)]
    | some m =>
      simp only [Option.map_some, Heap.libWith, Heap.setLib, upd_self, Library.apply, orFresh,
        Heap.pick, Option.getD_some, freshIn_some]
  | resourceTypes m =>
    cases ho
    unfold Heap.libVal
    rw [show ((H.setLib d (.resourceTypes m)).lib d).types = (H.lib d).types by
      simp only [Heap.setLib, upd_self]]
    unfold Heap.typeMap at hown
    rw [hown]
    cases m with
    | none =>
      simp only [Option.map_some, Heap.libWith, Heap.setLib, upd_self, Library.apply, orFresh,
        Heap.pick, Option.getD_none, freshIn, Option.isNone_none, if_true, Option.map_none, upd_ne _ _ (ne h2), upd_ne _ _ (ne h4), upd_ne _ _ (ne h6)]
    | some m =>
      simp only [Option.map_some, Heap.libWith, Heap.setLib, upd_self, Library.apply, orFresh,
        Heap.pick, Option.getD_some, freshIn_some]
  | annotations m =>
    cases ho
    unfold Heap.libVal
    rw [show ((H.setLib d (.annotations m)).lib d).types = (H.lib d).types by
      simp only [Heap.setLib, upd_self]]
    unfold Heap.typeMap at hown
    rw [hown]
    cases m with
    | none =>
      simp only [Option.map_some, Heap.libWith, Heap.setLib, upd_self, Library.apply, orFresh,
        Heap.pick, Option.getD_none, freshIn, Option.isNone_none, if_true, Option.map_none]
    | some m =>
      simp only [Option.map_some, Heap.libWith, Heap.setLib, upd_self, Library.apply, orFresh,
        Heap.pick, Option.getD_some, freshIn_some]
  | uses m =>
    cases ho
    unfold Heap.libVal
    rw [show ((H.setLib d (.uses m)).lib d).types = (H.lib d).types by
      simp only [Heap.setLib, upd_self]]
    unfold Heap.typeMap at hown
    rw [hown]
    cases m with
    | none =>
      simp only [Option.map_some, Heap.libWith, Heap.setLib, upd_self, Library.apply, orFresh,
        Heap.pick, Option.getD_none, freshIn, Option.isNone_none, if_true, Option.map_none]
    | some m =>
      simp only [Option.map_some, Heap.libWith, Heap.setLib, upd_self, Library.apply, orFresh,
        Heap.pick, Option.getD_some, freshIn_some]

/-- `Unset` of a section keeps the sections apart. -/
theorem own_unsetLib {d : Addr} {H : Heap} (hw : H.Closed) (ho : H.Own (.lib d)) {op : LibPtrOp}
    (hk : H.Keeps (.setLib d op)) : (H.setLib d op).Own (.lib d) := by
  cases op with
  | types m =>
    cases hk
    refine own_set (i := 0) (s := .tm H.next) hw ho rfl (fun o h1 h2 => ?_) ?_ ?_
    · cases o with
      | lib a =>
        simp only [Heap.refs, Heap.setLib, upd_ne _ _ (show a ≠ d from fun e => h1 (by rw [e]; rfl))]
      | tm a =>
        simp only [Heap.refs, Heap.setLib, freshIn, Option.isNone_none, if_true,
          upd_ne _ _ (show a ≠ H.next from fun e => h2 (by rw [e]))]
      | _ => rfl
    · simp [Heap.refs, Heap.setLib, freshIn, upd_self, OM.empty]
    · simp only [Holder.obj, Heap.refs, Heap.setLib, upd_self, Heap.pick, Option.getD_none]
      rfl
  | traits m =>
    cases hk
    refine own_set (i := 1) (s := .um H.next) hw ho rfl (fun o h1 h2 => ?_) ?_ ?_
    · cases o with
      | lib a =>
        simp only [Heap.refs, Heap.setLib, upd_ne _ _ (show a ≠ d from fun e => h1 (by rw [e]; rfl))]
      | _ => rfl
    · rfl
    · simp only [Holder.obj, Heap.refs, Heap.setLib, upd_self, Heap.pick, Option.getD_none]
      rfl
  | resourceTypes m =>
    cases hk
    refine own_set (i := 2) (s := .um H.next) hw ho rfl (fun o h1 h2 => ?_) ?_ ?_
    · cases o with
      | lib a =>
        simp only [Heap.refs, Heap.setLib, upd_ne _ _ (show a ≠ d from fun e => h1 (by rw [e]; rfl))]
      | _ => rfl
    · rfl
    · simp only [Holder.obj, Heap.refs, Heap.setLib, upd_self, Heap.pick, Option.getD_none]
      rfl
  | annotations m =>
    cases hk
    refine own_set (i := 4) (s := .am H.next) hw ho rfl (fun o h1 h2 => ?_) ?_ ?_
    · cases o with
      | lib a =>
        simp only [Heap.refs, Heap.setLib, upd_ne _ _ (show a ≠ d from fun e => h1 (by rw [e]; rfl))]
      | _ => rfl
    · rfl
    · simp only [Holder.obj, Heap.refs, Heap.setLib, upd_self, Heap.pick, Option.getD_none]
      rfl
  | uses m =>
    cases hk
    refine own_set (i := 6) (s := .sm H.next) hw ho rfl (fun o h1 h2 => ?_) ?_ ?_
    · cases o with
      | lib a =>
        simp only [Heap.refs, Heap.setLib, upd_ne _ _ (show a ≠ d from fun e => h1 (by rw [e]; rfl))]
      | _ => rfl
    · rfl
    · simp only [Holder.obj, Heap.refs, Heap.setLib, upd_self, Heap.pick, Option.getD_none]
      rfl

/-- One step on a library. -/
theorem libStep_sim {X : Xyml} {d : Addr} {H : Heap} {s : Library} (h : LibSim d H s)
    (st : DocStep) : LibSim d (H.run X (st.acts X H (.lib d))) (s.step X st) := by
  have hset : ∀ (op : LibPtrOp) (o : LibOp), H.Keeps (.setLib d op) → H.Legal (.setLib d op) →
      (∀ n, op.deref H n = some o) → LibSim d (H.setLib d op) (s.apply o) := by
    intro op o hk hl hd
    obtain ⟨n, hn⟩ := h.val
    exact ⟨(quiet_setLib hl).closed h.closed, Nat.lt_of_lt_of_le h.lt (quiet_setLib hl).only.next,
      own_unsetLib h.closed h.own hk, n, setLib_exact h.closed hl hn (hd n)⟩
  have hum := h.um
  simp only [List.nodup_cons, List.mem_cons, List.not_mem_nil, or_false, not_or, List.nodup_nil,
    not_false_eq_true, and_true] at hum
  obtain ⟨⟨n1, n2, n3⟩, ⟨n4, n5⟩, n6⟩ := hum
  have um : ∀ {m x} {s' : Library}, H.Points (.lib d) (.um m) →
      (∀ ts, s = H.libWith d ts → s' = Heap.libWith { H with um := upd H.um m x } d ts) →
      LibSim d { H with um := upd H.um m x } s' := fun hp hs =>
    h.leaf hp (by simp) (quiet_um H _).only rfl (refs_um H _ _) rfl hs
  have tcall : ∀ op op', opArg op = none → (∀ n, followOp (H.val n) op = some op') →
      LibSim d (H.edit (.tm (H.lib d).types fun y => y.call op))
        { s with types := s.types.call op' } := by
    intro op op' ha hf
    obtain ⟨n, hn⟩ := h.val
    refine h.types_call hn ⟨(closed_lib h.closed d).1, fun e he => ?_⟩ (by simp [ha]) (hf n)
    rcases call_mem he with h' | h'
    · exact h.closed (.tm (H.lib d).types) (.ty e.2) (List.mem_map.mpr ⟨e, h', rfl⟩)
    · rw [ha] at h'; cases h'
  cases st with
  | onLib op =>
    show LibSim d (if op.plain then H.setLibV d fun a => a.apply op else H)
      (if op.plain then s.apply op else s)
    by_cases hp : op.plain
    · rw [if_pos hp, if_pos hp]
      refine h.setV fun ts => ?_
      cases op <;> first
        | (simp only [Heap.libWith, Heap.setLibV, upd_self, Library.apply]; done)
        | cases hp
    · rw [if_neg hp, if_neg hp]; exact h
  | onApi op => exact h
  | unset sec =>
    have hl : ∀ x : Addr, (none : Option Addr) = some x → x < H.next := fun _ h => by cases h
    cases sec with
    | types => exact hset (.types none) (.setTypes none) rfl ⟨h.lt, hl⟩ fun _ => rfl
    | traits => exact hset (.traits none) (.setTraits none) rfl ⟨h.lt, hl⟩ fun _ => rfl
    | resourceTypes =>
      exact hset (.resourceTypes none) (.setResourceTypes none) rfl ⟨h.lt, hl⟩ fun _ => rfl
    | annotations =>
      exact hset (.annotations none) (.setAnnotations none) rfl ⟨h.lt, hl⟩ fun _ => rfl
    | uses => exact hset (.uses none) (.setUses none) rfl ⟨h.lt, hl⟩ fun _ => rfl
    | _ => exact h
  | load v => exact (libLoad_sim h v).1
  | nodes sec f =>
    cases sec
    case types => exact h
    case traits =>
      refine um (m := (H.lib d).traits) (by simp [lib_mem]) ?_
      rintro ts rfl
      simp only [Heap.libWith, Library.step, upd_self, upd_ne _ _ (Ne.symm n1), upd_ne _ _ (Ne.symm n2), upd_ne _ _ (Ne.symm n3)]
    case resourceTypes =>
      refine um (m := (H.lib d).resourceTypes) (by simp [lib_mem]) ?_
      rintro ts rfl
      simp only [Heap.libWith, Library.step, upd_self, upd_ne _ _ n1, upd_ne _ _ (Ne.symm n4), upd_ne _ _ (Ne.symm n5)]
    case annotationTypes =>
      refine um (m := (H.lib d).annotationTypes) (by simp [lib_mem]) ?_
      rintro ts rfl
      simp only [Heap.libWith, Library.step, upd_self, upd_ne _ _ n2, upd_ne _ _ n4, upd_ne _ _ (Ne.symm n6)]
    case annotations => exact h
    case securitySchemes =>
      refine um (m := (H.lib d).securitySchemes) (by simp [lib_mem]) ?_
      rintro ts rfl
      simp only [Heap.libWith, Library.step, upd_self, upd_ne _ _ n3, upd_ne _ _ n5, upd_ne _ _ n6]
    case baseURIParameters => exact h
    case uses => exact h
    case resources => exact h
    case extra => exact h
  | anns f =>
    show LibSim d (H.edit (.am (H.lib d).annotations f)) _
    refine h.leaf (o := .am (H.lib d).annotations) (by simp [lib_mem]) (by simp)
      (quiet_am H _).only rfl (refs_am H _ _) rfl ?_
    rintro ts rfl
    simp only [Heap.libWith, Heap.edit, Library.step, upd_self]
  | strings f =>
    show LibSim d (H.edit (.sm (H.lib d).uses f)) _
    refine h.leaf (o := .sm (H.lib d).uses) (by simp [lib_mem]) (by simp)
      (quiet_sm H _).only rfl (refs_sm H _ _) rfl ?_
    rintro ts rfl
    simp only [Heap.libWith, Heap.edit, Library.step, upd_self]
  | extra f =>
    show LibSim d (H.edit (.xm (H.lib d).extra f)) _
    refine h.leaf (o := .xm (H.lib d).extra) (by simp [lib_mem]) (by simp)
      (quiet_xm H _).only rfl (refs_xm H _ _) rfl ?_
    rintro ts rfl
    simp only [Heap.libWith, Heap.edit, Library.step, upd_self]
  | putType k v =>
    cases hv : hat X v with
    | ok t =>
      have e : H.run X ((DocStep.putType k v).acts X H (.lib d)) =
          H.putType (H.lib d).types k t := by
        simp only [DocStep.acts, Heap.sec, hv, Heap.run, List.foldl_cons, List.foldl_nil, Heap.act,
          Heap.edit, Heap.putType]
      rw [e]
      simp only [Library.step, hv]
      exact h.put k t
    | err e =>
      simp only [DocStep.acts, Heap.sec, hv, Heap.run, List.foldl_cons, List.foldl_nil, Heap.act,
        Library.step]
      exact h
    | panic c =>
      simp only [DocStep.acts, Heap.sec, hv, Heap.run, List.foldl_cons, List.foldl_nil, Heap.act,
        Library.step]
      exact h
  | dropType k => exact tcall (.delete k) (.delete k) rfl fun _ => rfl
  | orderTypes b => exact tcall (.serializeOrdered b) (.serializeOrdered b) rfl fun _ => rfl

end Verif.Doc
