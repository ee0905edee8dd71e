import Verif.Doc.HeapSec
import Verif.Doc.HeapExactSpec

/-! # Lemmas: calls on objects as calls on values -/

namespace Verif.Doc
open Relation

/-! ### Calls on maps -/

section maps
variable {α β : Type} {r : α → Option β}

theorem followMap_some {m : OM String α} {m' : OM String β} :
    followMap r m = some m' ↔
      List.Forall₂ (fun e e' => r e.2 = some e'.2 ∧ e.1 = e'.1) m.ents m'.ents ∧
        m'.omap = m.omap := by
  obtain ⟨es, o⟩ := m
  obtain ⟨es', o'⟩ := m'
  have key : ∀ (es : List (String × α)) (es' : List (String × β)),
      (es.mapM fun e => (r e.2).map fun y => (e.1, y)) = some es' ↔
        List.Forall₂ (fun e e' => r e.2 = some e'.2 ∧ e.1 = e'.1) es es' := by
    intro es
    induction es with
    | nil =>
      intro es'
      rw [List.mapM_nil]
      constructor
      · rintro ⟨⟩; exact .nil
      · rintro ⟨⟩; rfl
    | cons e es ih =>
      intro es'
      rw [List.mapM_cons]
      constructor
      · intro h
        obtain ⟨y, hy, h⟩ := Option.bind_eq_some_iff.mp h
        obtain ⟨ys, hys, h⟩ := Option.bind_eq_some_iff.mp h
        obtain ⟨z, hz, rfl⟩ := Option.map_eq_some_iff.mp hy
        cases h
        exact .cons ⟨hz, rfl⟩ ((ih ys).mp hys)
      · rintro (_ | ⟨⟨h1, h2⟩, h3⟩)
        rename_i e' l
        rw [h1, (ih _).mpr h3]
        obtain ⟨k, x⟩ := e'
        subst h2
        rfl
  simp only [followMap, Option.map_eq_some_iff, OM.mk.injEq, ← key]
  constructor
  · rintro ⟨l, hl, rfl, rfl⟩; exact ⟨hl, rfl⟩
  · rintro ⟨hl, rfl⟩; exact ⟨_, hl, rfl, rfl⟩

/-- Same keys in the same places, and values that belong together. -/
abbrev Follows (r : α → Option β) : List (String × α) → List (String × β) → Prop :=
  List.Forall₂ (fun e e' => r e.2 = some e'.2 ∧ e.1 = e'.1)

theorem follows_remove {es : List (String × α)} {es' : List (String × β)} (h : Follows r es es')
    (k : String) : Follows r (OMap.Spec.remove k es) (OMap.Spec.remove k es') := by
  induction h with
  | nil => exact .nil
  | @cons e e' l l' he _ ih =>
    unfold OMap.Spec.remove at *
    rw [List.filter_cons, List.filter_cons, he.2]
    split
    · exact .cons he ih
    · exact ih

theorem follows_snoc {es : List (String × α)} {es' : List (String × β)} (h : Follows r es es')
    {k : String} {x : α} {y : β} (hx : r x = some y) :
    Follows r (es ++ [(k, x)]) (es' ++ [(k, y)]) := by
  induction h with
  | nil => exact .cons ⟨hx, rfl⟩ .nil
  | cons he _ ih => exact .cons he ih

theorem follows_mem {es : List (String × α)} {es' : List (String × β)} (h : Follows r es es')
    (k : String) : OMap.Spec.mem k es = OMap.Spec.mem k es' := by
  unfold OMap.Spec.mem
  induction h with
  | nil => rfl
  | cons he _ ih => rw [List.any_cons, List.any_cons, he.2, ih]

theorem follows_replace {es : List (String × α)} {es' : List (String × β)} (h : Follows r es es')
    (k : String) {x : α} {y : β} (hx : r x = some y) :
    Follows r (OMap.Spec.replace k x es) (OMap.Spec.replace k y es') := by
  unfold OMap.Spec.replace
  induction h with
  | nil => exact .nil
  | cons he _ ih =>
    rw [List.map_cons, List.map_cons]
    refine .cons ?_ ih
    rw [he.2]
    split
    · exact ⟨hx, rfl⟩
    · exact he

/-- A call on a map of pointers shows as the call on the map of values. -/
theorem followMap_call {m : OM String α} {m' : OM String β} {op : OMap.Op String α}
    {op' : OMap.Op String β} (h : followMap r m = some m') (ho : followOp r op = some op') :
    followMap r (m.call op) = some (m'.call op') := by
  rw [followMap_some] at h ⊢
  obtain ⟨h, hf⟩ := h
  have hst : ∀ {V : Type} (op : OMap.Op String V) d,
      OMap.Spec.step op d = OMap.Spec.answer op d := by
    intro V op d
    unfold OMap.Spec.step
    split <;> rfl
  unfold OM.call
  simp only [hst]
  cases op with
  | put k x =>
    obtain ⟨y, hy, rfl⟩ := Option.map_eq_some_iff.mp ho
    exact ⟨follows_snoc (follows_remove h k) hy, hf⟩
  | putIfNotNil k x =>
    obtain ⟨y, hy, rfl⟩ := Option.map_eq_some_iff.mp ho
    cases x with
    | none => cases hy; exact ⟨h, hf⟩
    | some x =>
      obtain ⟨z, hz, rfl⟩ := Option.map_eq_some_iff.mp hy
      exact ⟨follows_snoc (follows_remove h k) hz, hf⟩
  | replaceOrPut k x =>
    obtain ⟨y, hy, rfl⟩ := Option.map_eq_some_iff.mp ho
    refine ⟨?_, hf⟩
    simp only [OMap.Spec.answer, follows_mem h k]
    split
    · exact follows_replace h k hy
    · exact follows_snoc (follows_remove h k) hy
  | replaceIfExists k x =>
    obtain ⟨y, hy, rfl⟩ := Option.map_eq_some_iff.mp ho
    exact ⟨follows_replace h k hy, hf⟩
  | delete k => cases ho; exact ⟨follows_remove h k, hf⟩
  | serializeOrdered b => cases ho; exact ⟨h, rfl⟩
  | get k => cases ho; exact ⟨h, hf⟩
  | has k => cases ho; exact ⟨h, hf⟩
  | indexOf k => cases ho; exact ⟨h, hf⟩
  | at' j => cases ho; exact ⟨h, hf⟩
  | len => cases ho; exact ⟨h, hf⟩
  | entries => cases ho; exact ⟨h, hf⟩

theorem followOp_congr {r' : α → Option β} {op : OMap.Op String α}
    (h : ∀ u ∈ opArg op, r u = r' u) : followOp r op = followOp r' op := by
  cases op with
  | put k x => simp only [followOp, h x rfl]
  | putIfNotNil k x =>
    cases x with
    | none => rfl
    | some x => simp only [followOp, followOpt, h x rfl]
  | replaceOrPut k x => simp only [followOp, h x rfl]
  | replaceIfExists k x => simp only [followOp, h x rfl]
  | _ => rfl

theorem put_call {V : Type} (m : OM String V) (k : String) (x : V) :
    m.put k x = m.call (.put k x) := rfl

theorem followMap_put {m : OM String α} {m' : OM String β} {k : String} {x : α} {y : β}
    (h : followMap r m = some m') (hx : r x = some y) :
    followMap r (m.put k x) = some (m'.put k y) := by
  rw [put_call, put_call]
  exact followMap_call h (by rw [followOp, hx]; rfl)

end maps

/-! ### Setters of data types -/

theorem exMap_hdr (H : Heap) (h : Hdr) (p : TypePtrs) :
    H.hdr h p = { h with
      extra := H.xm p.extra, annotations := H.am p.annotations, xml := p.xml.map H.xo,
      «example» := p.example.map H.ex, examples := H.exMap p.examples } := rfl

/-- A data type with a value is not inside itself. -/
theorem val_not_inside {H : Heap} {n : Nat} {a : Addr} {t : DT} (h : H.val n a = some t) :
    ¬ H.Inside (.ty a) (.ty a) := fun hi => by
  rw [cycle_no_val (inside_iff.mp hi) n] at h; cases h

/-- The parts of a data type that has a value. -/
theorem val_parts {H : Heap} {n : Nat} {a : Addr} {t : DT} (hv : H.val n a = some t) {h : Hdr}
    {p : TypePtrs} {b : Body} {f : Addr} {ps it : Option Addr}
    (hty : H.ty a = .ext h p b f ps it) :
    ∃ fs ps' it', t = .ext (H.hdr h p) b fs ps' it' ∧ H.facetMap n f = some fs ∧
      H.propsView (H.val n) ps = some ps' ∧ followOpt (H.val n) it = some it' := by
  cases n with
  | zero => cases hv
  | succ n =>
    simp only [Heap.val, Heap.view, hty] at hv
    obtain ⟨fs, hfs, hv⟩ := Option.bind_eq_some_iff.mp hv
    obtain ⟨ps', hps, hv⟩ := Option.bind_eq_some_iff.mp hv
    obtain ⟨it', hit, rfl⟩ := Option.map_eq_some_iff.mp hv
    refine ⟨fs, ps', it', rfl, ?_, ?_, ?_⟩
    · exact followMap_mono (fun e _ y hy => mapMono (Nat.le_succ n) hy) hfs
    · cases ps with
      | none => exact hps
      | some m => exact mapMono (Nat.le_succ n) hps
    · exact followOpt_mono (fun c _ y hy => val_mono (Nat.le_succ n) hy) hit

/-- The value from the parts. -/
theorem parts_val {H : Heap} {n : Nat} {a : Addr} {h : Hdr} {p : TypePtrs} {b : Body} {f : Addr}
    {ps it : Option Addr} (hty : H.ty a = .ext h p b f ps it) {fs : OM String (OM String DT)}
    {ps' : OM String DT} {it' : Option DT} (hf : H.facetMap n f = some fs)
    (hp : H.propsView (H.val n) ps = some ps') (hi : followOpt (H.val n) it = some it') :
    H.val (n + 1) a = some (.ext (H.hdr h p) b fs ps' it') := by
  have hf' : followMap (fun m => followMap (H.val n) (H.tm m)) (H.fm f) = some fs := hf
  simp only [Heap.val, Heap.view, hty, hf', hp, hi, Option.bind_some, Option.map_some]

theorem sameFrom_facetMap {H H' : Heap} {f : Addr} (hs : SameFrom H H' (.fm f)) (n : Nat) :
    H'.facetMap n f = H.facetMap n f :=
  (sameFrom_fm hs fun _ hc => sameFrom_val n hc).symm

theorem sameFrom_typeMap {H H' : Heap} {m : Addr} (hs : SameFrom H H' (.tm m)) (n : Nat) :
    H'.typeMap n m = H.typeMap n m :=
  (sameFrom_tm hs fun _ hc => sameFrom_val n hc).symm

theorem sameFrom_exMap {H H' : Heap} {m : Addr} (hs : SameFrom H H' (.em m)) :
    H'.exMap m = H.exMap m := by
  have h1 : H.em m = H'.em m := hs _ .refl
  unfold Heap.exMap
  rw [← h1]
  congr 1
  refine List.map_congr_left fun e he => ?_
  have h2 : H.ex e.2 = H'.ex e.2 := hs (.ex e.2) (.single (by
    simp only [Heap.Points, Heap.refs, List.mem_map]; exact ⟨e, he, rfl⟩))
  rw [h2]

/-- What an optional facet map, map of types or item type shows is the same from the same objects. -/
theorem sameFrom_props {H H' : Heap} {ps : Option Addr} (n : Nat)
    (hs : ∀ m, ps = some m → SameFrom H H' (.tm m)) :
    H'.propsView (H'.val n) ps = H.propsView (H.val n) ps := by
  cases ps with
  | none => rfl
  | some m => exact sameFrom_typeMap (hs m rfl) n

theorem sameFrom_items {H H' : Heap} {it : Option Addr} (n : Nat)
    (hs : ∀ m, it = some m → SameFrom H H' (.ty m)) :
    followOpt (H'.val n) it = followOpt (H.val n) it := by
  cases it with
  | none => rfl
  | some m => simp only [followOpt, sameFrom_val n (hs m rfl)]

/-- Objects that both heaps have in common below a data type, as far as its value goes. -/
structure KeptBelow (H H' : Heap) (a : Addr) : Prop where
  below : ∀ o, H.Points (.ty a) o → SameFrom H H' o

theorem KeptBelow.parts {H H' : Heap} {a : Addr} (hk : KeptBelow H H' a) {h : Hdr} {p : TypePtrs}
    {b : Body} {f : Addr} {ps it : Option Addr} (hty : H.ty a = .ext h p b f ps it) (n : Nat) :
    H'.hdr h p = H.hdr h p ∧ H'.facetMap n f = H.facetMap n f ∧
      H'.propsView (H'.val n) ps = H.propsView (H.val n) ps ∧
      followOpt (H'.val n) it = followOpt (H.val n) it := by
  have hm := fun o h => hk.below o ((mem_refs_ext hty o).mpr h)
  have h1 : H.xm p.extra = H'.xm p.extra := hm (.xm p.extra) (by simp) _ .refl
  have h2 : H.am p.annotations = H'.am p.annotations := hm (.am p.annotations) (by simp) _ .refl
  have h3 := sameFrom_exMap (hm (.em p.examples) (by simp))
  have h4 := sameFrom_facetMap (hm (.fm f) (by simp)) n
  have h5 : ∀ x, p.xml = some x → H.xo x = H'.xo x := fun x hx => hm (.xo x) (by simp [hx]) _ .refl
  have h6 : ∀ x, p.example = some x → H.ex x = H'.ex x :=
    fun x hx => hm (.ex x) (by simp [hx]) _ .refl
  have h7 := sameFrom_props (ps := ps) n fun m hx => hm (.tm m) (by simp [hx])
  have h8 := sameFrom_items (it := it) n fun m hx => hm (.ty m) (by simp [hx])
  refine ⟨?_, h4, h7, h8⟩
  rw [exMap_hdr, exMap_hdr, ← h1, ← h2, h3]
  have h5' : p.xml.map H'.xo = p.xml.map H.xo := by
    cases hx : p.xml with
    | none => rfl
    | some x => simp [h5 x hx]
  have h6' : p.example.map H'.ex = p.example.map H.ex := by
    cases hx : p.example with
    | none => rfl
    | some x => simp [h6 x hx]
  rw [h5', h6']

/-- A change of a data type alone. -/
theorem kept_below {H H' : Heap} (hw : H.Closed) {a : Addr} (hq : Only [.ty a] H H') {n : Nat}
    {t : DT} (hv : H.val n a = some t) : KeptBelow H H' a := by
  refine ⟨fun o ho => only_sameFrom hw hq (hw _ _ ho) fun x hx hr => ?_⟩
  rw [List.mem_singleton.mp hx] at hr
  exact val_not_inside hv (TransGen.head' ho hr)

set_option linter.unusedTactic false in
/-- What a setter without a pointer does to the value. -/
theorem plain_exact {H : Heap} (hw : H.Closed) {n : Nat} {a : Addr} {t : DT}
    (hv : H.val n a = some t) {op : TypeOp} (hp : op.plain = true) :
    (∀ H', H.typeCall a (.plain op) = some H' → ∃ t', t.apply op = some t' ∧
      H'.val (n + 1) a = some t') ∧
    (H.typeCall a (.plain op) = none → t.apply op = none) := by
  have key : ∀ o, (H.ty a).apply op = some o → ∃ t', t.apply op = some t' ∧
      ({ H with ty := upd H.ty a o } : Heap).val (n + 1) a = some t' := by
    intro o ho
    have hq := (quiet_plain ho).only
    cases hty : H.ty a with
    | basic i s x =>
      rw [hty] at ho
      have ht : t = .basic i s (H.xm x) := by
        cases n with
        | zero => cases hv
        | succ n => simp only [Heap.val, Heap.view, hty] at hv; exact (Option.some.inj hv).symm
      cases op <;> cases ho
      subst ht
      exact ⟨_, rfl, by simp only [Heap.val, Heap.view, upd_self]⟩
    | ext h p b f ps it =>
      rw [hty] at ho
      obtain ⟨fs, ps', it', rfl, hf, hps, hit⟩ := val_parts hv hty
      obtain ⟨e1, e2, e3, e4⟩ := (kept_below hw hq hv).parts hty n
      have hap : ∀ (h' : Hdr) (p' : TypePtrs) (b' : Body),
          (TypeObj.ext h p b f ps it).apply op = some (.ext h' p' b' f ps it) →
          DT.apply (.ext (H.hdr h p) b fs ps' it') op =
            some (.ext (H.hdr h' p') b' fs ps' it') := by
        intro h' p' b' ho
        cases op <;> first
          | (cases hp; done)
          | (simp only [TypeObj.apply, Hdr.apply] at ho; cases ho; rfl)
          | (simp only [TypeObj.apply, Hdr.apply] at ho
             obtain ⟨b2, hb2, ho⟩ := Option.map_eq_some_iff.mp ho
             cases ho
             simp only [DT.apply, Hdr.apply, hb2, Option.map_some])
      have hshape : ∃ h' p' b', o = .ext h' p' b' f ps it ∧
          Heap.hdr { H with ty := upd H.ty a o } h' p' = H.hdr h' p' := by
        simp only [TypeObj.apply] at ho
        split at ho
        · cases ho; exact ⟨_, _, _, rfl, rfl⟩
        · obtain ⟨b', _, rfl⟩ := Option.map_eq_some_iff.mp ho
          exact ⟨_, _, _, rfl, rfl⟩
      obtain ⟨h', p', b', rfl, hh⟩ := hshape
      refine ⟨_, hap h' p' b' ho, ?_⟩
      rw [parts_val (upd_self _ _ _) (e2.trans hf) (e3.trans hps) (e4.trans hit), hh]
  constructor
  · intro H' hc
    simp only [Heap.typeCall, hp, if_true] at hc
    obtain ⟨o, ho, rfl⟩ := Option.map_eq_some_iff.mp hc
    exact key o ho
  · intro hc
    simp only [Heap.typeCall, hp, if_true, Option.map_eq_none_iff] at hc
    cases hty : H.ty a with
    | basic i s x =>
      rw [hty] at hc
      have ht : t = .basic i s (H.xm x) := by
        cases n with
        | zero => cases hv
        | succ n => simp only [Heap.val, Heap.view, hty] at hv; exact (Option.some.inj hv).symm
      subst ht
      cases op <;> first | rfl | (cases hc; done) | (cases hp; done)
    | ext h p b f ps it =>
      rw [hty] at hc
      obtain ⟨fs, ps', it', rfl, hf, hps, hit⟩ := val_parts hv hty
      cases op <;> first
        | (cases hp; done)
        | (simp only [TypeObj.apply, Hdr.apply] at hc; cases hc; done)
        | (simp only [TypeObj.apply, Hdr.apply, Option.map_eq_none_iff] at hc
           simp only [DT.apply, Hdr.apply, hc, Option.map_none])

theorem freshIn_none {K V : Type} (H : Heap) (f : Addr → OM K V) :
    freshIn H none f H.next = OM.empty true := by simp [freshIn, upd_self]

theorem freshIn_some {K V : Type} (H : Heap) (f : Addr → OM K V) (m : Addr) :
    freshIn H (some m) f = f := by simp [freshIn]

set_option linter.unusedTactic false in
/-- What a setter with a pointer does to the value. -/
theorem ptr_exact {H : Heap} (hw : H.Closed) {n : Nat} {a : Addr} {t : DT}
    (hv : H.val n a = some t) {op : PtrOp} (hl : H.Legal (.onType a (.ptr op)))
    (harg : ∀ o ∈ op.arg, ¬ H.Reaches o (.ty a)) {o : TypeOp} (ho : op.deref H n = some o) :
    (∀ H', H.typeCall a (.ptr op) = some H' → ∃ t', t.apply o = some t' ∧
      H'.val (n + 1) a = some t') ∧
    (H.typeCall a (.ptr op) = none → t.apply o = none) := by
  constructor
  · intro H' hc
    have hc : H.setPtr a op = some H' := hc
    have hq := (quiet_setPtr hl hc).only
    have hs : ∀ o' ∈ op.arg, SameFrom H H' o' := fun o' ho' => by
      have hlt : o'.addr < H.next := by
        cases op <;> obtain ⟨m, rfl, rfl⟩ := Option.map_eq_some_iff.mp ho' <;> exact hl.2 m rfl
      exact only_sameFrom hw hq hlt fun x hx hr => by
        rw [List.mem_singleton.mp hx] at hr
        exact harg o' ho' hr
    cases hty : H.ty a with
    | basic i s x => cases op <;> simp only [Heap.setPtr, hty] at hc <;> cases hc
    | ext h p b f ps it =>
      obtain ⟨fs, ps', it', rfl, hf, hps, hit⟩ := val_parts hv hty
      obtain ⟨e1, e2, e3, e4⟩ := (kept_below hw hq hv).parts hty n
      cases op with
      | setExample m =>
        simp only [Heap.setPtr, hty] at hc; cases hc
        cases ho
        refine ⟨_, rfl, ?_⟩
        rw [parts_val (upd_self _ _ _) (e2.trans hf) (e3.trans hps) (e4.trans hit)]
        rfl
      | setXML m =>
        simp only [Heap.setPtr, hty] at hc; cases hc
        cases ho
        refine ⟨_, rfl, ?_⟩
        rw [parts_val (upd_self _ _ _) (e2.trans hf) (e3.trans hps) (e4.trans hit)]
        rfl
      | setItems m =>
        obtain ⟨y, hy, rfl⟩ := Option.map_eq_some_iff.mp ho
        cases b <;> simp only [Heap.setPtr, hty] at hc <;> cases hc
        refine ⟨_, rfl, ?_⟩
        rw [parts_val (upd_self _ _ _) (e2.trans hf) (e3.trans hps) (it' := y) ?_]
        · rfl
        · rw [← hy]
          exact sameFrom_items n fun m' hm => hs (.ty m') (by rw [PtrOp.arg, hm]; rfl)
      | setExamples m =>
        simp only [Heap.setPtr, hty] at hc; cases hc
        cases ho
        refine ⟨_, rfl, ?_⟩
        rw [parts_val (upd_self _ _ _) (e2.trans hf) (e3.trans hps) (e4.trans hit)]
        cases m with
        | none =>
          simp only [exMap_hdr, Heap.exMap, Heap.pick, Option.getD_none, freshIn_none, OM.empty,
            List.map_nil, Option.map_none, orFresh]
        | some m =>
          simp only [exMap_hdr, Heap.exMap, Heap.pick, Option.getD_some, freshIn_some,
            Option.map_some, orFresh]
      | setAnnotations m =>
        simp only [Heap.setPtr, hty] at hc; cases hc
        cases ho
        refine ⟨_, rfl, ?_⟩
        rw [parts_val (upd_self _ _ _) (e2.trans hf) (e3.trans hps) (e4.trans hit)]
        cases m with
        | none =>
          simp only [exMap_hdr, Heap.exMap, Heap.pick, Option.getD_none, freshIn_none,
            Option.map_none, orFresh]
        | some m =>
          simp only [exMap_hdr, Heap.exMap, Heap.pick, Option.getD_some, freshIn_some,
            Option.map_some, orFresh]
      | setExtraFacets m =>
        simp only [Heap.setPtr, hty] at hc; cases hc
        cases ho
        refine ⟨_, rfl, ?_⟩
        rw [parts_val (upd_self _ _ _) (e2.trans hf) (e3.trans hps) (e4.trans hit)]
        cases m with
        | none =>
          simp only [exMap_hdr, Heap.exMap, Heap.pick, Option.getD_none, freshIn_none,
            Option.map_none, orFresh]
        | some m =>
          simp only [exMap_hdr, Heap.exMap, Heap.pick, Option.getD_some, freshIn_some,
            Option.map_some, orFresh]
      | setFacetDefinitions m =>
        obtain ⟨y, hy, rfl⟩ := Option.map_eq_some_iff.mp ho
        simp only [Heap.setPtr, hty] at hc; cases hc
        refine ⟨_, rfl, ?_⟩
        rw [parts_val (upd_self _ _ _) (fs := orFresh y) ?_ (e3.trans hps) (e4.trans hit)]
        · rfl
        · cases m with
          | none =>
            cases hy
            simp only [Heap.facetMap, Heap.pick, Option.getD_none, freshIn_none, orFresh]
            rfl
          | some m =>
            obtain ⟨z, hz, rfl⟩ := Option.map_eq_some_iff.mp hy
            exact (sameFrom_facetMap (hs (.fm m) rfl) n).trans hz
      | setProperties m =>
        obtain ⟨y, hy, rfl⟩ := Option.map_eq_some_iff.mp ho
        cases b <;> simp only [Heap.setPtr, hty] at hc <;> cases hc
        refine ⟨_, rfl, ?_⟩
        rw [parts_val (upd_self _ _ _) (e2.trans hf) (ps' := orFresh y) ?_ (e4.trans hit)]
        · rfl
        · cases m with
          | none =>
            cases hy
            simp only [Heap.propsView, Heap.pick, Option.getD_none, freshIn_none, orFresh]
            rfl
          | some m =>
            obtain ⟨z, hz, rfl⟩ := Option.map_eq_some_iff.mp hy
            exact (sameFrom_typeMap (hs (.tm m) rfl) n).trans hz
  · intro hc
    have hc : H.setPtr a op = none := hc
    cases hty : H.ty a with
    | basic i s x =>
      have ht : t = .basic i s (H.xm x) := by
        cases n with
        | zero => cases hv
        | succ n => simp only [Heap.val, Heap.view, hty] at hv; exact (Option.some.inj hv).symm
      subst ht
      cases op <;> simp only [PtrOp.deref] at ho <;> first
        | (cases ho; rfl)
        | (obtain ⟨y, hy, rfl⟩ := Option.map_eq_some_iff.mp ho; rfl)
    | ext h p b f ps it =>
      obtain ⟨fs, ps', it', rfl, hf, hps, hit⟩ := val_parts hv hty
      cases op <;> simp only [PtrOp.deref] at ho <;> first
        | (simp only [Heap.setPtr, hty] at hc; cases hc; done)
        | (obtain ⟨y, hy, rfl⟩ := Option.map_eq_some_iff.mp ho
           cases b <;> simp only [Heap.setPtr, hty] at hc <;> first | (cases hc; done) | rfl)

/-! ### Calls on what a getter returned -/

/-- What a data type alone points to cannot be reached from below it. -/
theorem owned_below {H : Heap} {n : Nat} {a : Addr} {t : DT} (hv : H.val n a = some t) {s : Obj}
    (ho : H.OwnedBy (.ty a) s) {o : Obj} (h1 : H.Inside (.ty a) o) : ¬ H.Inside o s := by
  intro h2
  obtain ⟨x, hx, hp⟩ := TransGen.tail'_iff.mp h2
  have := ho x (h1.to_reflTransGen.trans hx) hp
  subst this
  exact val_not_inside hv (h1.trans_left hx)

/-- A change of one part that the data type alone points to leaves the other parts. -/
theorem owned_kept {H H' : Heap} (hw : H.Closed) {n : Nat} {a : Addr} {t : DT}
    (hv : H.val n a = some t) {s : Obj} (ho : H.OwnedBy (.ty a) s) (hq : Only [s] H H') {o : Obj}
    (hp : H.Points (.ty a) o) (hne : o ≠ s) : SameFrom H H' o :=
  only_sameFrom hw hq (hw _ _ hp) fun x hx hr => by
    rw [List.mem_singleton.mp hx] at hr
    rcases reflTransGen_iff_eq_or_transGen.mp hr with h | h
    · exact hne h.symm
    · exact owned_below hv ho (.single hp) h

/-- The same below that part. -/
theorem owned_kept' {H H' : Heap} (hw : H.Closed) {n : Nat} {a : Addr} {t : DT}
    (hv : H.val n a = some t) {s : Obj} (ho : H.OwnedBy (.ty a) s) (hq : Only [s] H H') {o : Obj}
    (hp : H.Points (.ty a) s) (hp' : H.Points s o) : SameFrom H H' o :=
  only_sameFrom hw hq (hw _ _ hp') fun x hx hr => by
    rw [List.mem_singleton.mp hx] at hr
    exact owned_below hv ho (.single hp) (TransGen.head' hp' hr)

section edits
variable {H : Heap} {n : Nat} {a : Addr} {t : DT}

theorem edit_extra_exact (hw : H.Closed) (hv : H.val n a = some t) {m : Addr}
    (hg : H.get a .extra = some (.xm m)) (ho : H.OwnedBy (.ty a) (.xm m))
    (f : OM Scalar Node → OM Scalar Node) :
    ∃ t', t.apply (.editExtra f) = some t' ∧ (H.edit (.xm m f)).val (n + 1) a = some t' := by
  have hq : Only [.xm m] H (H.edit (.xm m f)) := (quiet_xm H m).only
  cases hty : H.ty a with
  | basic i s x =>
    simp only [Heap.get, hty] at hg
    cases hg
    have ht : t = .basic i s (H.xm m) := by
      cases n with
      | zero => cases hv
      | succ n => simp only [Heap.val, Heap.view, hty] at hv; exact (Option.some.inj hv).symm
    subst ht
    refine ⟨_, rfl, ?_⟩
    simp only [Heap.val, Heap.view, Heap.edit, hty, upd_self]
  | ext h p b fa ps it =>
    simp only [Heap.get, hty] at hg
    cases hg
    obtain ⟨fs, ps', it', rfl, hf, hps, hit⟩ := val_parts hv hty
    have hk := fun o h => owned_kept hw hv ho hq ((mem_refs_ext hty o).mpr h)
    refine ⟨_, rfl, ?_⟩
    rw [parts_val (a := a) (H := H.edit (.xm p.extra f)) hty
      ((sameFrom_facetMap (hk (.fm fa) (by simp) (by simp)) n).trans hf)
      ((sameFrom_props (ps := ps) n fun m hx => hk (.tm m) (by simp [hx]) (by simp)).trans hps)
      ((sameFrom_items (it := it) n fun m hx => hk (.ty m) (by simp [hx]) (by simp)).trans hit)]
    simp only [Heap.hdr, Heap.edit, upd_self]

theorem edit_annotations_exact (hw : H.Closed) (hv : H.val n a = some t) {m : Addr}
    (hg : H.get a .annotations = some (.am m)) (ho : H.OwnedBy (.ty a) (.am m))
    (f : OM String Ann → OM String Ann) :
    ∃ t', t.apply (.editAnnotations f) = some t' ∧
      (H.edit (.am m f)).val (n + 1) a = some t' := by
  have hq : Only [.am m] H (H.edit (.am m f)) := (quiet_am H m).only
  cases hty : H.ty a with
  | basic i s x => simp only [Heap.get, hty] at hg; cases hg
  | ext h p b fa ps it =>
    simp only [Heap.get, hty] at hg
    cases hg
    obtain ⟨fs, ps', it', rfl, hf, hps, hit⟩ := val_parts hv hty
    have hk := fun o h => owned_kept hw hv ho hq ((mem_refs_ext hty o).mpr h)
    refine ⟨_, rfl, ?_⟩
    rw [parts_val (a := a) (H := H.edit (.am p.annotations f)) hty
      ((sameFrom_facetMap (hk (.fm fa) (by simp) (by simp)) n).trans hf)
      ((sameFrom_props (ps := ps) n fun m hx => hk (.tm m) (by simp [hx]) (by simp)).trans hps)
      ((sameFrom_items (it := it) n fun m hx => hk (.ty m) (by simp [hx]) (by simp)).trans hit)]
    simp only [Heap.hdr, Heap.edit, upd_self]

theorem xo_exact (hw : H.Closed) (hv : H.val n a = some t) {x : Addr}
    (hg : H.get a .xml = some (.xo x)) (ho : H.OwnedBy (.ty a) (.xo x)) (y : XML) :
    ∃ t', t.apply (.setXML (some y)) = some t' ∧
      { H with xo := upd H.xo x y }.val (n + 1) a = some t' := by
  have hq : Only [.xo x] H { H with xo := upd H.xo x y } := (quiet_xo H x).only
  cases hty : H.ty a with
  | basic i s x => simp only [Heap.get, hty] at hg; cases hg
  | ext h p b fa ps it =>
    simp only [Heap.get, hty] at hg
    obtain ⟨z, hz, hg⟩ := Option.map_eq_some_iff.mp hg
    cases hg
    obtain ⟨fs, ps', it', rfl, hf, hps, hit⟩ := val_parts hv hty
    have hk := fun o h => owned_kept hw hv ho hq ((mem_refs_ext hty o).mpr h)
    refine ⟨_, rfl, ?_⟩
    rw [parts_val (a := a) (H := { H with xo := upd H.xo x y }) hty
      ((sameFrom_facetMap (hk (.fm fa) (by simp) (by simp)) n).trans hf)
      ((sameFrom_props (ps := ps) n fun m hx => hk (.tm m) (by simp [hx]) (by simp)).trans hps)
      ((sameFrom_items (it := it) n fun m hx => hk (.ty m) (by simp [hx]) (by simp)).trans hit)]
    simp only [Heap.hdr, hz, Option.map_some, upd_self]

theorem edit_xml_exact (hw : H.Closed) (hv : H.val n a = some t) {x : Addr}
    (hg : H.get a .xml = some (.xo x)) (ho : H.OwnedBy (.ty a) (.xo x)) (op : XMLOp) :
    ∃ t', t.apply (.setXML (some ((H.xo x).apply op))) = some t' ∧
      (H.edit (.xo x op)).val (n + 1) a = some t' :=
  xo_exact hw hv hg ho _

theorem ex_exact (hw : H.Closed) (hv : H.val n a = some t) {x : Addr}
    (hg : H.get a .example = some (.ex x)) (ho : H.OwnedBy (.ty a) (.ex x)) (y : Example) :
    ∃ t', t.apply (.setExample (some y)) = some t' ∧
      { H with ex := upd H.ex x y }.val (n + 1) a = some t' := by
  have hq : Only [.ex x] H { H with ex := upd H.ex x y } := (quiet_ex H x).only
  cases hty : H.ty a with
  | basic i s x => simp only [Heap.get, hty] at hg; cases hg
  | ext h p b fa ps it =>
    simp only [Heap.get, hty] at hg
    obtain ⟨z, hz, hg⟩ := Option.map_eq_some_iff.mp hg
    cases hg
    obtain ⟨fs, ps', it', rfl, hf, hps, hit⟩ := val_parts hv hty
    have hk := fun o h => owned_kept hw hv ho hq ((mem_refs_ext hty o).mpr h)
    refine ⟨_, rfl, ?_⟩
    rw [parts_val (a := a) (H := { H with ex := upd H.ex x y }) hty
      ((sameFrom_facetMap (hk (.fm fa) (by simp) (by simp)) n).trans hf)
      ((sameFrom_props (ps := ps) n fun m hx => hk (.tm m) (by simp [hx]) (by simp)).trans hps)
      ((sameFrom_items (it := it) n fun m hx => hk (.ty m) (by simp [hx]) (by simp)).trans hit)]
    have he := sameFrom_exMap (hk (.em p.examples) (by simp) (by simp))
    rw [exMap_hdr, exMap_hdr, he]
    simp only [hz, Option.map_some, upd_self]

theorem edit_facets_exact (hw : H.Closed) (hv : H.val n a = some t) {m : Addr}
    (hg : H.get a .facets = some (.fm m)) (ho : H.OwnedBy (.ty a) (.fm m))
    {op : OMap.Op String Addr} (hl : H.Legal (.edit (.fm m fun x => x.call op)))
    (harg : ∀ u ∈ opArg op, u < H.next ∧ ¬ H.Reaches (.tm u) (.fm m))
    {op' : OMap.Op String (OM String DT)} (hop : followOp (H.typeMap n) op = some op') :
    ∃ t', t.apply (.editFacets fun x => x.call op') = some t' ∧
      (H.edit (.fm m fun x => x.call op)).val (n + 1) a = some t' := by
  have hq : Only [.fm m] H (H.edit (.fm m fun x => x.call op)) := (quiet_fm H m hl.2).only
  cases hty : H.ty a with
  | basic i s x => simp only [Heap.get, hty] at hg; cases hg
  | ext h p b fa ps it =>
    simp only [Heap.get, hty] at hg
    cases hg
    obtain ⟨fs, ps', it', rfl, hf, hps, hit⟩ := val_parts hv hty
    have hk := fun o h => owned_kept hw hv ho hq ((mem_refs_ext hty o).mpr h)
    have hp : H.Points (.ty a) (.fm m) := (mem_refs_ext hty _).mpr (by simp)
    refine ⟨_, rfl, ?_⟩
    rw [parts_val (a := a) (H := H.edit (.fm m fun x => x.call op)) hty (fs := fs.call op') ?_
      ((sameFrom_props (ps := ps) n fun m hx => hk (.tm m) (by simp [hx]) (by simp)).trans hps)
      ((sameFrom_items (it := it) n fun m hx => hk (.ty m) (by simp [hx]) (by simp)).trans hit)]
    · rfl
    · have e1 : followMap (Heap.typeMap (H.edit (.fm m fun x => x.call op)) n) (H.fm m) =
          some fs := by
        rw [← hf]
        refine followMap_congr fun e he => sameFrom_typeMap (owned_kept' hw hv ho hq hp ?_) n
        exact List.mem_map.mpr ⟨e, he, rfl⟩
      have e2 : followOp (Heap.typeMap (H.edit (.fm m fun x => x.call op)) n) op = some op' := by
        rw [← hop]
        refine followOp_congr fun u hu => sameFrom_typeMap (only_sameFrom hw hq (harg u hu).1 ?_) n
        intro x hx
        rw [List.mem_singleton.mp hx]
        exact (harg u hu).2
      have := followMap_call e1 e2
      simpa only [Heap.facetMap, Heap.edit, upd_self] using this

set_option linter.unusedTactic false in
theorem edit_properties_exact (hw : H.Closed) (hv : H.val n a = some t) {m : Addr}
    (hg : H.get a .properties = some (.tm m)) (ho : H.OwnedBy (.ty a) (.tm m))
    {op : OMap.Op String Addr} (hl : H.Legal (.edit (.tm m fun x => x.call op)))
    (harg : ∀ u ∈ opArg op, u < H.next ∧ ¬ H.Reaches (.ty u) (.tm m))
    {op' : OMap.Op String DT} (hop : followOp (H.val n) op = some op') :
    ∃ t', t.apply (.editProperties fun x => x.call op') = some t' ∧
      (H.edit (.tm m fun x => x.call op)).val (n + 1) a = some t' := by
  have hq : Only [.tm m] H (H.edit (.tm m fun x => x.call op)) := (quiet_tm H m hl.2).only
  cases hty : H.ty a with
  | basic i s x => simp only [Heap.get, hty] at hg; cases hg
  | ext h p b fa ps it =>
    cases b <;> simp only [Heap.get, hty] at hg <;> try (cases hg; done)
    obtain ⟨y, rfl, hg⟩ := Option.map_eq_some_iff.mp hg
    cases hg
    obtain ⟨fs, ps', it', rfl, hf, hps, hit⟩ := val_parts hv hty
    have hk := fun o h => owned_kept hw hv ho hq ((mem_refs_ext hty o).mpr h)
    have hp : H.Points (.ty a) (.tm m) := (mem_refs_ext hty _).mpr (by simp)
    refine ⟨_, rfl, ?_⟩
    rw [parts_val (a := a) (H := H.edit (.tm m fun x => x.call op)) hty (ps' := ps'.call op')
      ((sameFrom_facetMap (hk (.fm fa) (by simp) (by simp)) n).trans hf) ?_
      ((sameFrom_items (it := it) n fun m hx => hk (.ty m) (by simp [hx]) (by simp)).trans hit)]
    · rfl
    · have e1 : followMap (Heap.val (H.edit (.tm m fun x => x.call op)) n) (H.tm m) =
          some ps' := by
        rw [← show followMap (H.val n) (H.tm m) = some ps' from hps]
        refine followMap_congr fun e he => (sameFrom_val n (owned_kept' hw hv ho hq hp ?_)).symm
        exact List.mem_map.mpr ⟨e, he, rfl⟩
      have e2 : followOp (Heap.val (H.edit (.tm m fun x => x.call op)) n) op = some op' := by
        rw [← hop]
        refine followOp_congr fun u hu => (sameFrom_val n
          (only_sameFrom hw hq (harg u hu).1 ?_)).symm
        intro x hx
        rw [List.mem_singleton.mp hx]
        exact (harg u hu).2
      have := followMap_call e1 e2
      simpa only [Heap.propsView, Heap.edit, upd_self] using this

theorem edit_examples_exact (hw : H.Closed) (hv : H.val n a = some t) {m : Addr}
    (hg : H.get a .examples = some (.em m)) (ho : H.OwnedBy (.ty a) (.em m))
    {op : OMap.Op String Addr} (hl : H.Legal (.edit (.em m fun x => x.call op)))
    {op' : OMap.Op String Example} (hop : followOp (fun x => some (H.ex x)) op = some op') :
    ∃ t', t.apply (.editExamples fun x => x.call op') = some t' ∧
      (H.edit (.em m fun x => x.call op)).val (n + 1) a = some t' := by
  have hq : Only [.em m] H (H.edit (.em m fun x => x.call op)) := (quiet_em H m hl.2).only
  cases hty : H.ty a with
  | basic i s x => simp only [Heap.get, hty] at hg; cases hg
  | ext h p b fa ps it =>
    simp only [Heap.get, hty] at hg
    cases hg
    obtain ⟨fs, ps', it', rfl, hf, hps, hit⟩ := val_parts hv hty
    have hk := fun o h => owned_kept hw hv ho hq ((mem_refs_ext hty o).mpr h)
    refine ⟨_, rfl, ?_⟩
    rw [parts_val (a := a) (H := H.edit (.em p.examples fun x => x.call op)) hty
      ((sameFrom_facetMap (hk (.fm fa) (by simp) (by simp)) n).trans hf)
      ((sameFrom_props (ps := ps) n fun m hx => hk (.tm m) (by simp [hx]) (by simp)).trans hps)
      ((sameFrom_items (it := it) n fun m hx => hk (.ty m) (by simp [hx]) (by simp)).trans hit)]
    have e : ∀ m : OM String Addr, followMap (fun x => some (H.ex x)) m =
        some ⟨m.ents.map fun e => (e.1, H.ex e.2), m.omap⟩ := by
      intro m
      unfold followMap
      simp only [Option.map_some]
      rw [mapM_total]
      rfl
    have := followMap_call (e (H.em p.examples)) hop
    rw [e] at this
    simp only [exMap_hdr, Heap.exMap, Heap.edit, upd_self, Option.some.injEq] at this ⊢
    rw [this]

end edits

/-- The receiver points to the object handed over. -/
theorem setPtr_points {H H' : Heap} {a : Addr} {op : PtrOp} (h : H.setPtr a op = some H') {o : Obj}
    (ho : op.arg = some o) : H'.Points (.ty a) o := by
  cases hty : H.ty a with
  | basic i s x => cases op <;> simp only [Heap.setPtr, hty] at h <;> cases h
  | ext hd p b f ps it =>
    cases op with
    | setItems m =>
      cases b <;> simp only [Heap.setPtr, hty] at h <;> cases h
      obtain ⟨m', rfl, rfl⟩ := Option.map_eq_some_iff.mp ho
      simp [Heap.Points, Heap.refs, upd_self]
    | setProperties m =>
      cases b <;> simp only [Heap.setPtr, hty] at h <;> cases h
      obtain ⟨m', rfl, rfl⟩ := Option.map_eq_some_iff.mp ho
      simp [Heap.Points, Heap.refs, upd_self, Heap.pick]
    | _ m =>
      simp only [Heap.setPtr, hty] at h
      cases h
      obtain ⟨m', rfl, rfl⟩ := Option.map_eq_some_iff.mp ho
      simp [Heap.Points, Heap.refs, upd_self, Heap.pick]

set_option linter.unusedTactic false in
/-- A change inside the item type. -/
theorem items_exact {H H' : Heap} (hw : H.Closed) {n : Nat} {a m : Addr} {t : DT}
    (hv : H.val n a = some t) (hg : H.get a .items = some (.ty m)) {T : List Obj} (hq : Only T H H')
    (hs : ∀ o ∈ T, o ≠ .ty a ∧ ∀ p, H.Points (.ty a) p → p ≠ .ty m → ¬ H.Reaches p o)
    {u : DT} (hu : H'.val n m = some u) (ha : a < H.next) :
    ∃ t', t.apply (.setItems (some u)) = some t' ∧ H'.val (n + 1) a = some t' := by
  cases hty : H.ty a with
  | basic i s x => simp only [Heap.get, hty] at hg; cases hg
  | ext h p b fa ps it =>
    cases b <;> simp only [Heap.get, hty] at hg <;> try (cases hg; done)
    obtain ⟨y, rfl, hg⟩ := Option.map_eq_some_iff.mp hg
    cases hg
    obtain ⟨fs, ps', it', rfl, hf, hps, hit⟩ := val_parts hv hty
    have hk : ∀ o, _ → o ≠ .ty m → SameFrom H H' o := fun o h hne =>
      only_sameFrom hw hq (hw (.ty a) o ((mem_refs_ext hty o).mpr h)) fun x hx =>
        (hs x hx).2 o ((mem_refs_ext hty o).mpr h) hne
    have hty' : H'.ty a = _ := (hq.same (.ty a) ha fun hm => (hs _ hm).1 rfl).symm.trans hty
    refine ⟨_, rfl, ?_⟩
    rw [parts_val (a := a) (H := H') hty' (it' := some u)
      ((sameFrom_facetMap (hk (.fm fa) (by simp) (by simp)) n).trans hf)
      ((sameFrom_props (ps := ps) n fun m hx => hk (.tm m) (by simp [hx]) (by simp)).trans hps)
      (by simp only [followOpt, hu, Option.map_some])]
    have h1 : H.xm p.extra = H'.xm p.extra := hk (.xm p.extra) (by simp) (by simp) _ .refl
    have h2 : H.am p.annotations = H'.am p.annotations :=
      hk (.am p.annotations) (by simp) (by simp) _ .refl
    have h3 := sameFrom_exMap (hk (.em p.examples) (by simp) (by simp))
    have h4 : p.xml.map H.xo = p.xml.map H'.xo := by
      cases hx : p.xml with
      | none => rfl
      | some x => exact congrArg some (hk (.xo x) (by simp [hx]) (by simp) _ .refl)
    have h5 : p.example.map H.ex = p.example.map H'.ex := by
      cases hx : p.example with
      | none => rfl
      | some x => exact congrArg some (hk (.ex x) (by simp [hx]) (by simp) _ .refl)
    rw [exMap_hdr, exMap_hdr, ← h1, ← h2, h3, ← h4, ← h5]

/-- Replacing the value under a key, where pointers go. -/
theorem followMap_replace {α β : Type} {r r' : α → Option β} {m : OM String α} {m' : OM String β}
    (h : followMap r m = some m') {k : String} {u : β}
    (hk : ∀ e ∈ m.ents, (e.1 = k → r' e.2 = some u) ∧ (e.1 ≠ k → r' e.2 = r e.2)) :
    followMap r' m = some (m'.call (.replaceIfExists k u)) := by
  rw [followMap_some] at h ⊢
  obtain ⟨h, hf⟩ := h
  refine ⟨?_, hf⟩
  have e : (m'.call (.replaceIfExists k u)).ents = OMap.Spec.replace k u m'.ents := by
    simp only [OM.call, OMap.Spec.step, OMap.Spec.keyOf]
    exact congrArg Prod.snd (if_pos rfl)
  rw [e]
  unfold OMap.Spec.replace
  clear e
  generalize m.ents = es at h hk
  generalize m'.ents = es' at h
  induction h with
  | nil => exact .nil
  | @cons x y l l' he _ ih =>
    refine .cons ?_ (ih fun e hm => hk e (List.mem_cons_of_mem _ hm))
    have h1 := hk x List.mem_cons_self
    by_cases hx : x.1 = k
    · have : (y.1 == k) = true := by rw [← he.2, hx]; exact beq_self_eq_true k
      simp only [this, if_true]
      exact ⟨h1.1 hx, he.2⟩
    · have : (y.1 == k) = false := by rw [← he.2]; exact beq_false_of_ne hx
      simp only [this, Bool.false_eq_true, if_false]
      exact ⟨(h1.2 hx).trans he.1, he.2⟩

set_option linter.unusedTactic false in
/-- A change inside a property type. -/
theorem property_exact {H H' : Heap} (hw : H.Closed) {n : Nat} {a m c : Addr} {t : DT} {k : String}
    (hv : H.val n a = some t) (ha : a < H.next) (hg : H.get a .properties = some (.tm m))
    (hkc : ∀ e ∈ (H.tm m).ents, e.1 = k ↔ e.2 = c) {T : List Obj} (hq : Only T H H')
    (hs : ∀ o ∈ T, o ≠ .ty a ∧ o ≠ .tm m ∧
      (∀ p, H.Points (.ty a) p → p ≠ .tm m → ¬ H.Reaches p o) ∧
      ∀ e ∈ (H.tm m).ents, e.2 ≠ c → ¬ H.Reaches (.ty e.2) o)
    {u : DT} (hu : H'.val n c = some u) :
    ∃ t', t.apply (.editProperties fun x => x.call (.replaceIfExists k u)) = some t' ∧
      H'.val (n + 1) a = some t' := by
  cases hty : H.ty a with
  | basic i s x => simp only [Heap.get, hty] at hg; cases hg
  | ext h p b fa ps it =>
    cases b <;> simp only [Heap.get, hty] at hg <;> try (cases hg; done)
    obtain ⟨y, rfl, hg⟩ := Option.map_eq_some_iff.mp hg
    cases hg
    obtain ⟨fs, ps', it', rfl, hf, hps, hit⟩ := val_parts hv hty
    have hk : ∀ o, _ → o ≠ .tm m → SameFrom H H' o := fun o h hne =>
      only_sameFrom hw hq (hw (.ty a) o ((mem_refs_ext hty o).mpr h)) fun x hx =>
        (hs x hx).2.2.1 o ((mem_refs_ext hty o).mpr h) hne
    have hty' : H'.ty a = _ := (hq.same (.ty a) ha fun hm => (hs _ hm).1 rfl).symm.trans hty
    have hmlt : m < H.next := hw (.ty a) (.tm m) ((mem_refs_ext hty _).mpr (by simp))
    have htm : H.tm m = H'.tm m := hq.same (.tm m) hmlt fun hm => (hs _ hm).2.1 rfl
    refine ⟨_, rfl, ?_⟩
    have hnew : H'.propsView (H'.val n) (some m) = some (ps'.call (.replaceIfExists k u)) := by
      show followMap (H'.val n) (H'.tm m) = _
      rw [← htm]
      refine followMap_replace (r := H.val n) hps fun e he => ⟨fun h => ?_, fun h => ?_⟩
      · rw [(hkc e he).mp h]; exact hu
      · refine (sameFrom_val n (only_sameFrom hw hq (hw (.tm m) (.ty e.2)
          (List.mem_map.mpr ⟨e, he, rfl⟩)) fun x hx => ?_)).symm
        exact (hs x hx).2.2.2 e he fun h' => h ((hkc e he).mpr h')
    rw [parts_val (a := a) (H := H') hty'
      ((sameFrom_facetMap (hk (.fm fa) (by simp) (by simp)) n).trans hf) hnew
      ((sameFrom_items (it := it) n fun m hx => hk (.ty m) (by simp [hx]) (by simp)).trans hit)]
    have h1 : H.xm p.extra = H'.xm p.extra := hk (.xm p.extra) (by simp) (by simp) _ .refl
    have h2 : H.am p.annotations = H'.am p.annotations :=
      hk (.am p.annotations) (by simp) (by simp) _ .refl
    have h3 := sameFrom_exMap (hk (.em p.examples) (by simp) (by simp))
    have h4 : p.xml.map H.xo = p.xml.map H'.xo := by
      cases hx : p.xml with
      | none => rfl
      | some x => exact congrArg some (hk (.xo x) (by simp [hx]) (by simp) _ .refl)
    have h5 : p.example.map H.ex = p.example.map H'.ex := by
      cases hx : p.example with
      | none => rfl
      | some x => exact congrArg some (hk (.ex x) (by simp [hx]) (by simp) _ .refl)
    rw [exMap_hdr, exMap_hdr, ← h1, ← h2, h3, ← h4, ← h5]

end Verif.Doc
