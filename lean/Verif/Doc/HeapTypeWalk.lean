import Verif.Doc.HeapTypeOk

/-! # Lemmas: steps on data types in data types -/

namespace Verif.Doc
open Relation

section steps
variable {X : Xyml} {a : Addr} {H : Heap} {t : DT}

/-! ### XML settings and examples -/

theorem ok_editXML (h : TreeSim X a H t) (op : XMLOp) :
    StepOk X H a (TypeStep.acts X H a (.editXML op)) (t.alter X (.editXML op)) := by
  simp only [TypeStep.acts]
  cases hg : H.getMap a .xml with
  | none => exact ok_nil h (xml_none h hg _)
  | some x =>
    have hg := getMap_some hg
    have hp := get_points hg
    exact ok_leaf h (s := .edit (.xo x op)) (o := .xo x) (.single hp) (h.closed _ _ hp) rfl
      (sprouts_xo h.closed _ _) (val_xml h hg fun y => y.apply op)

theorem ok_loadXML (h : TreeSim X a H t) (v : Node) :
    StepOk X H a (TypeStep.acts X H a (.loadXML v)) (t.alter X (.loadXML v)) := by
  simp only [TypeStep.acts]
  cases hg : H.getMap a .xml with
  | none => exact ok_nil h (xml_none h hg _)
  | some x =>
    have hg := getMap_some hg
    have hp := get_points hg
    exact ok_leaf h (s := .loadXML x v) (o := .xo x) (.single hp) (h.closed _ _ hp) rfl
      (sprouts_xo h.closed _ _) (val_xml h hg fun y => (y.load X v).1)

theorem ok_editExample (h : TreeSim X a H t) (op : ExampleOp) :
    StepOk X H a (TypeStep.acts X H a (.editExample op)) (t.alter X (.editExample op)) := by
  simp only [TypeStep.acts]
  cases hg : H.getMap a .example with
  | none => exact ok_nil h (example_none h hg _)
  | some x =>
    have hg := getMap_some hg
    have hp := get_points hg
    exact ok_leaf h (s := .edit (.ex x op)) (o := .ex x) (.single hp) (h.closed _ _ hp) rfl
      (sprouts_ex h.closed _ _) (val_example h hg fun y => y.apply op)

theorem ok_loadExample (h : TreeSim X a H t) (v : Node) :
    StepOk X H a (TypeStep.acts X H a (.loadExample v)) (t.alter X (.loadExample v)) := by
  simp only [TypeStep.acts]
  cases hg : H.getMap a .example with
  | none => exact ok_nil h (example_none h hg _)
  | some x =>
    have hg := getMap_some hg
    have hp := get_points hg
    exact ok_leaf h (s := .loadEx x v) (o := .ex x) (.single hp) (h.closed _ _ hp) rfl
      (sprouts_ex h.closed _ _) (val_example h hg fun y => (y.load X v).1)

theorem ok_editExampleAt (h : TreeSim X a H t) (k : String) (op : ExampleOp) :
    StepOk X H a (TypeStep.acts X H a (.editExampleAt k op)) (t.alter X (.editExampleAt k op)) := by
  simp only [TypeStep.acts]
  cases hx : H.exampleAt a k with
  | none => exact ok_nil h (exampleAt_none h hx _)
  | some x =>
    obtain ⟨m, hg, hm, hp⟩ := exampleAt_some hx
    exact ok_leaf h (s := .edit (.ex x op)) (o := .ex x)
      (.head (get_points hg) (.single hp)) (h.closed _ _ hp) rfl
      (sprouts_ex h.closed _ _) (val_exampleAt h hg hm fun y => y.apply op)

theorem ok_loadExampleAt (h : TreeSim X a H t) (k : String) (v : Node) :
    StepOk X H a (TypeStep.acts X H a (.loadExampleAt k v)) (t.alter X (.loadExampleAt k v)) := by
  simp only [TypeStep.acts]
  cases hx : H.exampleAt a k with
  | none => exact ok_nil h (exampleAt_none h hx _)
  | some x =>
    obtain ⟨m, hg, hm, hp⟩ := exampleAt_some hx
    exact ok_leaf h (s := .loadEx x v) (o := .ex x)
      (.head (get_points hg) (.single hp)) (h.closed _ _ hp) rfl
      (sprouts_ex h.closed _ _) (val_exampleAt h hg hm fun y => (y.load X v).1)

/-- Two calls, the second on a map with what the first created. -/
theorem moves_put {H1 : Heap} {s1 : Act} {e : MapEdit} {o : Obj} (hl1 : H.Legal s1)
    (ht1 : H.touches s1 = []) (h1 : H.act X s1 = H1) (hl2 : H1.Legal (.edit e))
    (ht2 : H1.touches (.edit e) = [o]) (hr : H.Reaches (.ty a) o) (hs : Sprouts H (H1.edit e)) :
    Moves X H (.ty a) [s1, .edit e] := by
  have hrun : H.run X [s1, .edit e] = H1.edit e := by
    simp only [Heap.run, List.foldl_cons, List.foldl_nil, h1]; rfl
  have hl : H.LegalAll X [s1, .edit e] := ⟨hl1, by rw [h1]; exact hl2, trivial⟩
  refine ⟨hl, by rw [hrun]; exact hs, _, (quiet_run hl).only, fun x hx => ?_⟩
  simp only [Heap.touchesAll, ht1, h1, ht2, List.nil_append, List.append_nil] at hx
  rw [List.mem_singleton.mp hx]
  exact hr

theorem legal_put {H1 : Heap} (hw : H1.Closed) {mk : Addr → Obj} {o : Obj} {y : OM String Addr}
    (hr : H1.refs o = y.ents.map fun e => mk e.2) (hmk : ∀ x, (mk x).addr = x) {k : String} {x : Addr}
    (hx : x < H1.next) : ∀ e ∈ (y.put k x).ents, e.2 < H1.next := by
  intro e he
  rcases mem_put he with he | rfl
  · have := hw o (mk e.2) (by rw [Heap.Points, hr]; exact List.mem_map.mpr ⟨e, he, rfl⟩)
    rwa [hmk] at this
  · exact hx

theorem ok_putExample (h : TreeSim X a H t) (k : String) :
    StepOk X H a (TypeStep.acts X H a (.putExample k)) (t.alter X (.putExample k)) := by
  simp only [TypeStep.acts]
  cases hg : H.getMap a .examples with
  | none => exact ok_nil h (examples_none h hg _)
  | some m =>
    have hg := getMap_some hg
    have hp := get_points hg
    obtain ⟨n, hn⟩ := h.val
    have hm : m < H.next := h.closed _ _ hp
    have hkd := val_kind hn
    dsimp only
    rw [hkd]
    have hc := closed_storeEx h.closed (Example.new t.kind)
    refine ⟨moves_put (o := .em m) trivial rfl rfl ⟨Nat.lt_succ_of_lt hm, ?_⟩ rfl (.single hp) ?_, ?_⟩
    · exact legal_put (o := .em m) hc (mk := .ex) rfl (fun _ => rfl) (Nat.lt_succ_self _)
    · exact (plants_putEx h.closed m k (Example.new t.kind)).sprouts h.closed
    · have hpt := val_part (val_mono (Nat.le_succ n) hn) hg
      cases t with
      | basic => cases hpt
      | ext c b fs ps it => exact (h.sim.putEx hg k (Example.new b.kind)).val

theorem sub_call {V : Type} (m : OM String V) {op : OMap.Op String V}
    (ho : (∃ k, op = .delete k) ∨ ∃ b, op = .serializeOrdered b) :
    (m.call op).ents.Sublist m.ents := by
  rcases ho with ⟨k, rfl⟩ | ⟨b, rfl⟩
  · simp only [OM.call, spec_step]
    exact List.filter_sublist
  · simp only [OM.call, spec_step]
    exact List.Sublist.refl _

/-- The calls that only remove entries, or only set the output flag. -/
theorem sub_followOp {α β : Type} (r : α → Option β) {op : OMap.Op String α}
    {op' : OMap.Op String β} (ho : (∃ k, op = .delete k ∧ op' = .delete k) ∨
      ∃ b, op = .serializeOrdered b ∧ op' = .serializeOrdered b) :
    followOp r op = some op' ∧ opArg op = none ∧
      ((∃ k, op = .delete k) ∨ ∃ b, op = .serializeOrdered b) := by
  rcases ho with ⟨k, rfl, rfl⟩ | ⟨b, rfl, rfl⟩
  · exact ⟨rfl, rfl, Or.inl ⟨k, rfl⟩⟩
  · exact ⟨rfl, rfl, Or.inr ⟨b, rfl⟩⟩

theorem ok_dropExamples (h : TreeSim X a H t) {op : OMap.Op String Addr}
    {op' : OMap.Op String Example} (ho : (∃ k, op = .delete k ∧ op' = .delete k) ∨
      ∃ b, op = .serializeOrdered b ∧ op' = .serializeOrdered b) :
    StepOk X H a (match H.getMap a .examples with
      | some m => [.edit (.em m fun y => y.call op)]
      | none => []) (t.editHdr fun c => { c with examples := c.examples.call op' }) := by
  cases hg : H.getMap a .examples with
  | none => exact ok_nil h (examples_none h hg _)
  | some m =>
    have hg := getMap_some hg
    have hp := get_points hg
    obtain ⟨n, hn⟩ := h.val
    obtain ⟨hop, -, hs⟩ := sub_followOp (fun x => some (H.ex x)) ho
    have hsub := sub_call (H.em m) hs
    have hl : H.Legal (.edit (.em m fun y => y.call op)) := ⟨h.closed _ _ hp, fun e he =>
      h.closed (.em m) (.ex e.2) (List.mem_map.mpr ⟨e, hsub.subset he, rfl⟩)⟩
    refine ok_edit (o := .em m) rfl (.single hp) hl
      (sprouts_drop h.closed (quiet_em H m hl.2) ?_) ?_
    · simp only [Heap.refs, Heap.edit, upd_self]
      exact hsub.map _
    · obtain ⟨t', ht, hv⟩ := edit_examples_exact h.closed hn hg (h.tree.owned hp) hl hop
      refine ⟨n + 1, hv.trans ?_⟩
      cases t <;> cases ht <;> rfl

/-! ### Items -/

theorem ok_parse (h : TreeSim X a H t) (v : Node) {t' : DT} (e : t' = t) :
    StepOk X H a [.parseType v] t' := by
  subst e
  cases hv : hat X v with
  | ok u =>
    have hst := storeT_ok u H
    have h1 : H.act X (.parseType v) = (H.storeT u).2 := by simp only [Heap.act, hv]
    refine ⟨moves_one (s := .parseType v) trivial ?_ fun _ q => (by cases q), ?_⟩
    · rw [h1]; exact sprouts_ext h.closed (hst.closed h.closed) hst.ext
    · show ∃ n, (H.act X (.parseType v)).val n a = _
      rw [h1]; exact (h.sim.extends hst.ext (hst.closed h.closed)).val
  | err e =>
    have h1 : H.act X (.parseType v) = H := by simp only [Heap.act, hv]
    refine ⟨moves_one (s := .parseType v) trivial ?_ fun _ q => (by cases q), ?_⟩
    · rw [h1]; exact .refl h.closed
    · show ∃ n, (H.act X (.parseType v)).val n a = _
      rw [h1]; exact h.val
  | panic c =>
    have h1 : H.act X (.parseType v) = H := by simp only [Heap.act, hv]
    refine ⟨moves_one (s := .parseType v) trivial ?_ fun _ q => (by cases q), ?_⟩
    · rw [h1]; exact .refl h.closed
    · show ∃ n, (H.act X (.parseType v)).val n a = _
      rw [h1]; exact h.val

theorem ok_newItems (h : TreeSim X a H t) (v : Node) :
    StepOk X H a (TypeStep.acts X H a (.newItems v)) (t.alter X (.newItems v)) := by
  obtain ⟨n', hn'⟩ := h.val
  simp only [TypeStep.acts, DT.alter]
  cases hv : hat X v with
  | err e =>
    refine ok_parse h v ?_
    cases t with
    | basic => rfl
    | ext c b fs ps it => cases b <;> rfl
  | panic e =>
    refine ok_parse h v ?_
    cases t with
    | basic => rfl
    | ext c b fs ps it => cases b <;> rfl
  | ok u =>
    have hst := storeT_ok u H
    have h1 : H.act X (.parseType v) = (H.storeT u).2 := by simp only [Heap.act, hv]
    have hcl1 := hst.closed h.closed
    dsimp only
    have hl2 : (H.storeT u).2.Legal (.onType a (.ptr (.setItems (some (H.storeT u).1)))) :=
      ⟨Nat.lt_of_lt_of_le h.lt hst.ext.next, fun _ q => by cases q; exact hst.above.self.2⟩
    have hrun : H.run X [.parseType v, .onType a (.ptr (.setItems (some (H.storeT u).1)))] =
        ((H.storeT u).2.setPtr a (.setItems (some (H.storeT u).1))).getD (H.storeT u).2 := by
      simp only [Heap.run, List.foldl_cons, List.foldl_nil, h1]; rfl
    have hty1 : (H.storeT u).2.ty a = H.ty a := (hst.ext.same (.ty a) h.lt).symm
    have hs1 := sprouts_ext h.closed hcl1 hst.ext
    have hno : (H.storeT u).2.setPtr a (.setItems (some (H.storeT u).1)) = none →
        ∀ {t'}, t' = t → StepOk X H a
          [.parseType v, .onType a (.ptr (.setItems (some (H.storeT u).1)))] t' := by
      rintro hc t' rfl
      refine ⟨moves_pair trivial rfl h1 hl2 (by rw [hc]; exact hs1), ?_⟩
      rw [hrun, hc]
      exact (h.sim.extends hst.ext hcl1).val
    cases hty : H.ty a with
    | basic i s x =>
      refine hno (by simp only [Heap.setPtr, hty1, hty]) ?_
      have ht : t = .basic i s (H.xm x) := by
        cases n' with
        | zero => cases hn'
        | succ n' => simp only [Heap.val, Heap.view, hty] at hn'; exact (Option.some.inj hn').symm
      rw [ht]
    | ext c p b f ps it =>
      obtain ⟨fs, ps', it', e, -⟩ := val_parts hn' hty
      cases b with
      | array ar =>
        have hc : (H.storeT u).2.setPtr a (.setItems (some (H.storeT u).1)) =
            some ((H.storeT u).2.setTy a (.ext c p (.array ar) f ps (some (H.storeT u).1))) := by
          simp only [Heap.setPtr, hty1, hty]; rfl
        have hcl := ((quiet_setPtr hl2 hc).closed hcl1)
        refine ⟨moves_pair trivial rfl h1 hl2 (by
          rw [hc]; exact sprouts_newItems h.closed h.lt hty u hcl), ?_⟩
        rw [hrun, hc]
        refine h.sim.newItems hty u fun fs ps' it' e => ?_
        rw [e]
      | _ => exact hno (by simp only [Heap.setPtr, hty1, hty]) (by rw [e])

/-! ### Properties -/

theorem properties_none (h : TreeSim X a H t) (hg : H.getMap a .properties = none)
    (g : OM String DT → OM String DT) : t.onProperties g = t := by
  obtain ⟨n, hn⟩ := h.val
  have := part_none hn (h.reach.sound a) (getMap_none hg)
  cases t with
  | basic => rfl
  | ext c b fs ps it => cases b <;> first | rfl | cases this

theorem get_properties {n : Nat} (hv : H.val n a = some t) {m : Addr}
    (hg : H.get a .properties = some (.tm m)) :
    ∃ c o fs ps it, t = .ext c (.object o) fs ps it ∧ H.typeMap n m = some ps := by
  cases hty : H.ty a with
  | basic i x y => simp only [Heap.get, hty] at hg; cases hg
  | ext c p b f ps it =>
    obtain ⟨fs, ps', it', rfl, hf, hps, hit⟩ := val_parts hv hty
    cases b <;> simp only [Heap.get, hty] at hg <;> try (cases hg; done)
    obtain ⟨y, rfl, hg⟩ := Option.map_eq_some_iff.mp hg
    cases hg
    exact ⟨_, _, _, _, _, rfl, hps⟩

theorem get_facets {n : Nat} (hv : H.val n a = some t) {m : Addr}
    (hg : H.get a .facets = some (.fm m)) :
    ∃ c b fs ps it, t = .ext c b fs ps it ∧ H.facetMap n m = some fs := by
  cases hty : H.ty a with
  | basic i x y => simp only [Heap.get, hty] at hg; cases hg
  | ext c p b f ps it =>
    obtain ⟨fs, ps', it', rfl, hf, hps, hit⟩ := val_parts hv hty
    simp only [Heap.get, hty] at hg
    cases hg
    exact ⟨_, _, _, _, _, rfl, hf⟩

theorem get_items {n : Nat} (hv : H.val n a = some t) {b : Addr}
    (hg : H.get a .items = some (.ty b)) :
    ∃ c o fs ps u, t = .ext c (.array o) fs ps (some u) ∧ H.val n b = some u := by
  cases hty : H.ty a with
  | basic i x y => simp only [Heap.get, hty] at hg; cases hg
  | ext c p b f ps it =>
    obtain ⟨fs, ps', it', rfl, hf, hps, hit⟩ := val_parts hv hty
    cases b <;> simp only [Heap.get, hty] at hg <;> try (cases hg; done)
    obtain ⟨y, rfl, hg⟩ := Option.map_eq_some_iff.mp hg
    cases hg
    obtain ⟨u, hu, rfl⟩ := Option.map_eq_some_iff.mp hit
    exact ⟨_, _, _, _, _, rfl, hu⟩

theorem ok_putProperty (h : TreeSim X a H t) (k : String) (v : Node) :
    StepOk X H a (TypeStep.acts X H a (.putProperty k v)) (t.alter X (.putProperty k v)) := by
  simp only [TypeStep.acts, DT.alter]
  cases hv : hat X v with
  | err e => cases H.getMap a .properties <;> exact ok_parse h v rfl
  | panic e => cases H.getMap a .properties <;> exact ok_parse h v rfl
  | ok u =>
    cases hg : H.getMap a .properties with
    | none =>
      refine ok_parse h v ?_
      dsimp only
      split
      · exact properties_none h hg _
      · rfl
    | some m =>
      dsimp only
      by_cases hpr : u.isProperty = true
      · rw [if_pos hpr, if_pos hpr]
        have hg := getMap_some hg
        have hp := get_points hg
        obtain ⟨n, hn⟩ := h.val
        have hm : m < H.next := h.closed _ _ hp
        have hst := storeT_ok u H
        have h1 : H.act X (.parseType v) = (H.storeT u).2 := by simp only [Heap.act, hv]
        have hcl1 := hst.closed h.closed
        refine ⟨moves_put (o := .tm m) trivial rfl h1 ⟨Nat.lt_of_lt_of_le hm hst.ext.next, ?_⟩ rfl
          (.single hp) ?_, ?_⟩
        · exact legal_put (o := .tm m) hcl1 (mk := .ty) rfl (fun _ => rfl) hst.above.self.2
        · exact (plants_putType h.closed hm k u).sprouts h.closed
        · have hrun : H.run X [.parseType v, .edit (.tm m fun y => y.put k (H.storeT u).1)] =
              H.putType m k u := by
            simp only [Heap.run, List.foldl_cons, List.foldl_nil, h1]; rfl
          rw [hrun]
          obtain ⟨c, o, fs, ps, it, rfl, -⟩ := get_properties hn hg
          exact (h.sim.putType hg k u).val
      · rw [if_neg hpr, if_neg hpr]
        exact ok_parse h v rfl

theorem ok_dropProperties (h : TreeSim X a H t) {op : OMap.Op String Addr}
    {op' : OMap.Op String DT} (ho : (∃ k, op = .delete k ∧ op' = .delete k) ∨
      ∃ b, op = .serializeOrdered b ∧ op' = .serializeOrdered b) :
    StepOk X H a (match H.getMap a .properties with
      | some m => [.edit (.tm m fun y => y.call op)]
      | none => []) (t.onProperties fun m => m.call op') := by
  cases hg : H.getMap a .properties with
  | none => exact ok_nil h (properties_none h hg _)
  | some m =>
    have hg := getMap_some hg
    have hp := get_points hg
    obtain ⟨n, hn⟩ := h.val
    obtain ⟨hop, harg, hs⟩ := sub_followOp (H.val n) ho
    have hsub := sub_call (H.tm m) hs
    have hl : H.Legal (.edit (.tm m fun y => y.call op)) := ⟨h.closed _ _ hp, fun e he =>
      h.closed (.tm m) (.ty e.2) (List.mem_map.mpr ⟨e, hsub.subset he, rfl⟩)⟩
    refine ok_edit (o := .tm m) rfl (.single hp) hl
      (sprouts_drop h.closed (quiet_tm H m hl.2) ?_) ?_
    · simp only [Heap.refs, Heap.edit, upd_self]
      exact hsub.map _
    · obtain ⟨t', ht, hv⟩ := edit_properties_exact h.closed hn hg (h.tree.owned hp) hl
        (fun u hu => by rw [harg] at hu; cases hu) hop
      refine ⟨n + 1, hv.trans ?_⟩
      obtain ⟨c, o, fs, ps, it, rfl, -⟩ := get_properties hn hg
      cases ht; rfl

/-! ### Facets -/

theorem facets_none (h : TreeSim X a H t) (hg : H.getMap a .facets = none)
    (g : OM String (OM String DT) → OM String (OM String DT)) : t.onFacets g = t := by
  obtain ⟨n, hn⟩ := h.val
  have := part_none hn (h.reach.sound a) (getMap_none hg)
  cases t with
  | basic => rfl
  | ext c b fs ps it => cases this

theorem ok_dropFacets (h : TreeSim X a H t) {op : OMap.Op String Addr}
    {op' : OMap.Op String (OM String DT)} (ho : (∃ k, op = .delete k ∧ op' = .delete k) ∨
      ∃ b, op = .serializeOrdered b ∧ op' = .serializeOrdered b) :
    StepOk X H a (match H.getMap a .facets with
      | some m => [.edit (.fm m fun y => y.call op)]
      | none => []) (t.onFacets fun m => m.call op') := by
  cases hg : H.getMap a .facets with
  | none => exact ok_nil h (facets_none h hg _)
  | some m =>
    have hg := getMap_some hg
    have hp := get_points hg
    obtain ⟨n, hn⟩ := h.val
    obtain ⟨hop, harg, hs⟩ := sub_followOp (H.typeMap n) ho
    have hsub := sub_call (H.fm m) hs
    have hl : H.Legal (.edit (.fm m fun y => y.call op)) := ⟨h.closed _ _ hp, fun e he =>
      h.closed (.fm m) (.tm e.2) (List.mem_map.mpr ⟨e, hsub.subset he, rfl⟩)⟩
    refine ok_edit (o := .fm m) rfl (.single hp) hl
      (sprouts_drop h.closed (quiet_fm H m hl.2) ?_) ?_
    · simp only [Heap.refs, Heap.edit, upd_self]
      exact hsub.map _
    · obtain ⟨t', ht, hv⟩ := edit_facets_exact h.closed hn hg (h.tree.owned hp) hl
        (fun u hu => by rw [harg] at hu; cases hu) hop
      refine ⟨n + 1, hv.trans ?_⟩
      obtain ⟨c, b, fs, ps, it, rfl, -⟩ := get_facets hn hg
      cases ht; rfl

theorem extends_newMap (H : Heap) : Extends H H.newMap := by
  refine ⟨Nat.le_succ _, fun o ho => ?_⟩
  have hne : ∀ {b : Addr}, b < H.next → b ≠ H.next := fun h e => Nat.lt_irrefl _ (e ▸ h)
  cases o <;> first
    | exact (upd_ne _ _ (hne ho)).symm
    | rfl

theorem newMap_leaf (H : Heap) : H.newMap.refs (.tm H.next) = [] := by
  simp [Heap.refs, Heap.newMap, upd_self, OM.empty]

theorem ok_putFacet (h : TreeSim X a H t) (k : String) :
    StepOk X H a (TypeStep.acts X H a (.putFacet k)) (t.alter X (.putFacet k)) := by
  simp only [TypeStep.acts]
  cases hg : H.getMap a .facets with
  | none => exact ok_nil h (facets_none h hg _)
  | some m =>
    have hg := getMap_some hg
    have hp := get_points hg
    have hm : m < H.next := h.closed _ _ hp
    have hcl1 : H.newMap.Closed := (quiet_act X (s := .newMap) trivial).closed h.closed
    have hleaf := newMap_leaf H
    have hl : H.newMap.Legal (.edit (.fm m fun y => y.put k H.next)) :=
      ⟨Nat.lt_succ_of_lt hm,
        legal_put (o := .fm m) hcl1 (mk := .tm) rfl (fun _ => rfl) (Nat.lt_succ_self _)⟩
    have hsm : H.fm m = H.newMap.fm m := (extends_newMap H).same (.fm m) hm
    have hq : Quiet [.fm m] H.newMap (H.newMap.edit (.fm m fun y => y.put k H.next)) :=
      quiet_fm H.newMap m hl.2
    have hab : H.newMap.Above H.next (.tm H.next) := fun x hx => by
      rw [leaf_reaches hleaf hx]; exact ⟨Nat.le_refl _, Nat.lt_succ_self _⟩
    dsimp only
    refine ⟨moves_put (o := .fm m) (s1 := .newMap) trivial rfl rfl hl rfl (.single hp) ?_, ?_⟩
    · refine (plants_one (p := .fm m) (y0 := .tm H.next) h.closed (extends_newMap H)
        (hq.closed hcl1) hq.only hm hab (tree_leaf hleaf) (fun ht => ?_) fun y hy => ?_).sprouts
          h.closed
      · have hn : ((H.fm m).ents.map fun e => Obj.tm e.2).Nodup := ht.nodup _ .refl
        simp only [Heap.refs, Heap.edit, upd_self, ← hsm]
        refine nodup_put hn fun x hx q => ?_
        have := h.closed (.fm m) (.tm x.2)
          (List.mem_map_of_mem (f := fun e : String × Addr => Obj.tm e.2) hx)
        rw [q] at this
        exact absurd this (Nat.lt_irrefl _)
      · simp only [Heap.Points, Heap.refs, Heap.edit, upd_self, List.mem_map] at hy
        obtain ⟨x, hx, rfl⟩ := hy
        rcases mem_put hx with hx | rfl
        · rw [← hsm] at hx
          exact Or.inl (List.mem_map_of_mem (f := fun e : String × Addr => Obj.tm e.2) hx)
        · exact Or.inr rfl
    · have h1 := h.sim.extends (extends_newMap H) hcl1
      obtain ⟨n, hn⟩ := h1.val
      have hg1 : H.newMap.get a .facets = some (.fm m) := hg
      obtain ⟨t', ht, hv⟩ := edit_facets_exact h1.closed hn hg1 (h1.own _ (get_maps rfl hg1))
        (op := .put k H.next) hl (fun x hx => by
          cases hx
          exact ⟨Nat.lt_succ_self _, fun hr => by cases leaf_reaches hleaf hr⟩)
        (op' := .put k (OM.empty true)) (by
          have : H.newMap.typeMap n H.next = some (OM.empty true) := by
            simp only [Heap.typeMap, Heap.newMap, upd_self]; rfl
          simp only [followOp, this, Option.map_some])
      refine ⟨n + 1, hv.trans ?_⟩
      obtain ⟨c, b, fs, ps, it, rfl, -⟩ := get_facets hn hg1
      cases ht; rfl

/-- What a map of data types shows after a call on it. -/
theorem typeMap_call {u : Addr} (hw : H.Closed) (ht : H.Tree (.tm u)) {n : Nat}
    {y : OM String DT} (hy : H.typeMap n u = some y) {op : OMap.Op String Addr}
    (hl : H.Legal (.edit (.tm u fun x => x.call op)))
    (harg : ∀ c ∈ opArg op, c < H.next ∧ ¬ H.Reaches (.ty c) (.tm u))
    {op' : OMap.Op String DT} (hop : followOp (H.val n) op = some op') :
    (H.edit (.tm u fun x => x.call op)).typeMap n u = some (y.call op') := by
  have hq : Only [.tm u] H (H.edit (.tm u fun x => x.call op)) := (quiet_tm H u hl.2).only
  have e1 : followMap (Heap.val (H.edit (.tm u fun x => x.call op)) n) (H.tm u) = some y := by
    rw [← hy]
    refine followMap_congr fun e he => (sameFrom_val n (only_sameFrom hw hq
      (hw (.tm u) (.ty e.2) (reaches_entry he)) fun x hx => ?_)).symm
    rw [List.mem_singleton.mp hx]
    exact fun hr => ht.acyclic .refl (TransGen.head' (reaches_entry he) hr)
  have e2 : followOp (Heap.val (H.edit (.tm u fun x => x.call op)) n) op = some op' := by
    rw [← hop]
    refine followOp_congr fun c hc => (sameFrom_val n (only_sameFrom hw hq (harg c hc).1 ?_)).symm
    intro x hx
    rw [List.mem_singleton.mp hx]
    exact (harg c hc).2
  have := followMap_call e1 e2
  simpa only [Heap.typeMap, Heap.edit, upd_self] using this

theorem facetMap_entry {m u : Addr} {k : String} (hu : (H.fm m).get k = some u) :
    H.Points (.fm m) (.tm u) := by
  obtain ⟨e, he, rfl⟩ := get_mem hu
  exact List.mem_map.mpr ⟨e, he, rfl⟩

/-- A change below one of the maps of facets. -/
theorem val_facetAt {H' : Heap} (h : TreeSim X a H t) {m u : Addr} {k : String}
    (hg : H.get a .facets = some (.fm m)) (hu : (H.fm m).get k = some u) {T : List Obj}
    (hq : Only T H H') (hT : ∀ x ∈ T, H.Reaches (.tm u) x) {g : OM String DT → OM String DT}
    {n0 : Nat} (hv : ∀ n y, n0 ≤ n → H.typeMap n u = some y → H'.typeMap n u = some (g y)) :
    ∃ n, H'.val n a = some (t.onFacets fun f => f.change k g) := by
  obtain ⟨n1, hn1⟩ := h.val
  have hn := val_mono (Nat.le_max_left n1 n0) hn1
  have hle := Nat.le_max_right n1 n0
  generalize max n1 n0 = n at hn hle
  have hpu := facetMap_entry hu
  have hpm := get_points hg
  have htm := h.tree.sub (.single hpm)
  obtain ⟨fs, hfs, h1, h2⟩ := part_facets h.closed h.tree hn h.lt hg hq fun x hx =>
    .head hpu (hT x hx)
  refine ⟨n + 1, ?_⟩
  rw [h1 fun f => f.change k g]
  refine h2 _ ?_
  have hnd : ((H.fm m).ents.map Prod.snd).Nodup := by
    have := htm.nodup _ .refl
    simp only [Heap.refs] at this
    refine List.Nodup.of_map Obj.tm ?_
    rw [List.map_map]
    exact this
  have hfm : H.fm m = H'.fm m := htm.above hq (h.closed _ _ hpm) hpu hT
  obtain ⟨y, hy⟩ := get_value hfs hu
  have := change_get (r' := H'.typeMap n) hfs hu hnd (g := g) hy (hv n y hle hy)
    fun e he hne => sameFrom_typeMap (htm.beside h.closed hq hpu hT (y := .tm e.2)
      (List.mem_map.mpr ⟨e, he, rfl⟩) (fun q => hne (Obj.tm.inj q))) n
  unfold Heap.facetMap
  rw [← hfm]
  exact this

theorem facetAt_some {k : String} {u : Addr} (hx : H.facetAt a k = some u) :
    ∃ m, H.get a .facets = some (.fm m) ∧ (H.fm m).get k = some u ∧ H.Points (.fm m) (.tm u) := by
  obtain ⟨m, hm, hx⟩ := Option.bind_eq_some_iff.mp hx
  exact ⟨m, getMap_some hm, hx, facetMap_entry hx⟩

theorem facetAt_none (h : TreeSim X a H t) {k : String} (hx : H.facetAt a k = none)
    (g : OM String DT → OM String DT) : t.onFacets (fun f => f.change k g) = t := by
  cases hg : H.getMap a .facets with
  | none => exact facets_none h hg _
  | some m =>
    obtain ⟨n, hn⟩ := h.val
    simp only [Heap.facetAt, hg, Option.bind_some] at hx
    obtain ⟨c, b, fs, ps, it, rfl, hfs⟩ := get_facets hn (getMap_some hg)
    simp only [DT.onFacets, change_none hfs hx g]

theorem ok_dropFacetTypes (h : TreeSim X a H t) {k : String} {op : OMap.Op String Addr}
    {op' : OMap.Op String DT} (ho : (∃ k, op = .delete k ∧ op' = .delete k) ∨
      ∃ b, op = .serializeOrdered b ∧ op' = .serializeOrdered b) :
    StepOk X H a (match H.facetAt a k with
      | some m => [.edit (.tm m fun y => y.call op)]
      | none => []) (t.onFacets fun m => m.change k fun y => y.call op') := by
  cases hx : H.facetAt a k with
  | none => exact ok_nil h (facetAt_none h hx _)
  | some u =>
    obtain ⟨m, hg, hu, hp⟩ := facetAt_some hx
    have hpm := get_points hg
    have hr : H.Reaches (.ty a) (.tm u) := .head hpm (.single hp)
    have hs := (sub_followOp (H.val 0) ho).2.2
    have harg := (sub_followOp (H.val 0) ho).2.1
    have hsub := sub_call (H.tm u) hs
    have hl : H.Legal (.edit (.tm u fun y => y.call op)) := ⟨h.closed _ _ hp, fun e he =>
      h.closed (.tm u) (.ty e.2) (List.mem_map.mpr ⟨e, hsub.subset he, rfl⟩)⟩
    refine ok_edit (o := .tm u) rfl hr hl (sprouts_drop h.closed (quiet_tm H u hl.2) ?_) ?_
    · simp only [Heap.refs, Heap.edit, upd_self]
      exact hsub.map _
    · exact val_facetAt h hg hu (quiet_tm H u hl.2).only (only_one rfl .refl) (n0 := 0)
        fun n y _ hy => typeMap_call h.closed (h.tree.sub hr) hy hl
          (fun c hc => by rw [harg] at hc; cases hc) (sub_followOp (H.val n) ho).1

theorem ok_putFacetType (h : TreeSim X a H t) (k k' : String) (v : Node) :
    StepOk X H a (TypeStep.acts X H a (.putFacetType k k' v)) (t.alter X (.putFacetType k k' v)) := by
  simp only [TypeStep.acts, DT.alter]
  cases hv : hat X v with
  | err e => cases H.facetAt a k <;> exact ok_parse h v rfl
  | panic e => cases H.facetAt a k <;> exact ok_parse h v rfl
  | ok w =>
    cases hx : H.facetAt a k with
    | none => exact ok_parse h v (facetAt_none h hx _)
    | some u =>
      obtain ⟨m, hg, hu, hp⟩ := facetAt_some hx
      have hpm := get_points hg
      have hr : H.Reaches (.ty a) (.tm u) := .head hpm (.single hp)
      have hlt : u < H.next := h.closed _ _ hp
      have hst := storeT_ok w H
      have h1 : H.act X (.parseType v) = (H.storeT w).2 := by simp only [Heap.act, hv]
      have hcl1 := hst.closed h.closed
      have hl : (H.storeT w).2.Legal (.edit (.tm u fun y => y.put k' (H.storeT w).1)) :=
        ⟨Nat.lt_of_lt_of_le hlt hst.ext.next,
          legal_put (o := .tm u) hcl1 (mk := .ty) rfl (fun _ => rfl) hst.above.self.2⟩
      refine ⟨moves_put (o := .tm u) trivial rfl h1 hl rfl hr ?_, ?_⟩
      · exact (plants_putType h.closed hlt k' w).sprouts h.closed
      · have hrun : H.run X [.parseType v, .edit (.tm u fun y => y.put k' (H.storeT w).1)] =
            H.putType u k' w := by
          simp only [Heap.run, List.foldl_cons, List.foldl_nil, h1]; rfl
        rw [hrun]
        obtain ⟨n0, hn0⟩ := hst.val
        have hsf : SameFrom H (H.storeT w).2 (.tm u) := extends_sameFrom h.closed hst.ext hlt
        refine val_facetAt h hg hu (quiet_putType H u k' w).only (only_one rfl .refl) (n0 := n0)
          fun n y hle hy => ?_
        have hop : followOp ((H.storeT w).2.val n) (.put k' (H.storeT w).1) = some (.put k' w) := by
          simp only [followOp, val_mono hle hn0, Option.map_some]
        exact typeMap_call hcl1 (sameFrom_tree hsf (h.tree.sub hr))
          (op := .put k' (H.storeT w).1) (op' := .put k' w)
          ((sameFrom_typeMap hsf n).trans hy) hl (fun c hc => by
            cases hc
            exact ⟨hst.above.self.2, fun hr => absurd hlt (Nat.not_lt.mpr (hst.above _ hr).1)⟩) hop

/-- Every step on a data type object is the step on its value. -/
theorem step_ok (h : TreeSim X a H t) (s : TypeStep) :
    StepOk X H a (s.acts X H a) (t.alter X s) := by
  cases s with
  | call op => exact ok_call h op
  | unset s => exact ok_unset h s
  | load v => exact ok_load h v
  | extra f => exact ok_extra h f
  | anns f => exact ok_anns h f
  | newXML => exact ok_newXML h
  | editXML op => exact ok_editXML h op
  | loadXML v => exact ok_loadXML h v
  | newExample => exact ok_newExample h
  | editExample op => exact ok_editExample h op
  | loadExample v => exact ok_loadExample h v
  | putExample k => exact ok_putExample h k
  | editExampleAt k op => exact ok_editExampleAt h k op
  | loadExampleAt k v => exact ok_loadExampleAt h k v
  | dropExample k => exact ok_dropExamples h (Or.inl ⟨k, rfl, rfl⟩)
  | orderExamples b => exact ok_dropExamples h (Or.inr ⟨b, rfl, rfl⟩)
  | newItems v => exact ok_newItems h v
  | putProperty k v => exact ok_putProperty h k v
  | dropProperty k => exact ok_dropProperties h (Or.inl ⟨k, rfl, rfl⟩)
  | orderProperties b => exact ok_dropProperties h (Or.inr ⟨b, rfl, rfl⟩)
  | putFacet k => exact ok_putFacet h k
  | dropFacet k => exact ok_dropFacets h (Or.inl ⟨k, rfl, rfl⟩)
  | orderFacets b => exact ok_dropFacets h (Or.inr ⟨b, rfl, rfl⟩)
  | putFacetType k k' v => exact ok_putFacetType h k k' v
  | dropFacetType k k' => exact ok_dropFacetTypes h (Or.inl ⟨k', rfl, rfl⟩)
  | orderFacetTypes k b => exact ok_dropFacetTypes h (Or.inr ⟨b, rfl, rfl⟩)

end steps

end Verif.Doc
