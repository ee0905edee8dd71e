import Verif.Doc.HeapPlant
import Verif.Doc.HeapTreeSpec

/-! # Lemmas: a step on a data type as a step on its value -/

namespace Verif.Doc
open Relation

/-! ### Entries -/

section entries
variable {α β : Type} {r r' : α → Option β}

theorem change_get {m : OM String α} {m' : OM String β} (h : followMap r m = some m') {k : String}
    {c : α} (hc : m.get k = some c) (hn : (m.ents.map Prod.snd).Nodup) {u : β} {g : β → β}
    (hu : r c = some u) (hu' : r' c = some (g u)) (ho : ∀ e ∈ m.ents, e.2 ≠ c → r' e.2 = r e.2) :
    followMap r' m = some (m'.change k g) := by
  rw [followMap_some] at h ⊢
  obtain ⟨h, hf⟩ := h
  refine ⟨?_, hf⟩
  unfold OM.get at hc
  unfold OM.change
  dsimp only
  generalize m.ents = es at h hc hn ho
  generalize m'.ents = es' at h
  induction h with
  | nil => cases hc
  | @cons e e' l l' he hl ih =>
    rw [changeFirst]
    have hn' := List.nodup_cons.mp hn
    by_cases hk : e.1 = k
    · rw [if_pos (he.2.symm.trans hk)]
      rw [List.find?_cons_of_pos (by simpa using hk)] at hc
      have hce : e.2 = c := Option.some.inj hc
      refine .cons ⟨?_, he.2⟩ ?_
      · rw [hce, hu']
        have := he.1
        rw [hce, hu] at this
        rw [Option.some.inj this]
      · have : ∀ x ∈ l, r' x.2 = r x.2 := fun x hx => ho x (List.mem_cons_of_mem _ hx) fun q =>
          hn'.1 (List.mem_map.mpr ⟨x, hx, q.trans hce.symm⟩)
        clear ih hc hn hn' ho
        induction hl with
        | nil => exact .nil
        | @cons x x' y y' hx _ ih =>
          exact .cons ⟨(this x List.mem_cons_self).trans hx.1, hx.2⟩
            (ih fun z hz => this z (List.mem_cons_of_mem _ hz))
    · rw [if_neg fun q => hk (he.2.trans q)]
      rw [List.find?_cons_of_neg (by simpa using hk)] at hc
      have hec : e.2 ≠ c := fun q => by
        obtain ⟨x, hx, hxc⟩ := Option.map_eq_some_iff.mp hc
        exact hn'.1 (List.mem_map.mpr ⟨x, List.mem_of_find?_eq_some hx, hxc.trans q.symm⟩)
      exact .cons ⟨(ho e List.mem_cons_self hec).trans he.1, he.2⟩
        (ih hc hn'.2 fun x hx => ho x (List.mem_cons_of_mem _ hx))

theorem change_none {m : OM String α} {m' : OM String β} (h : followMap r m = some m') {k : String}
    (hc : m.get k = none) (g : β → β) : m'.change k g = m' := by
  rw [followMap_some] at h
  obtain ⟨h, -⟩ := h
  obtain ⟨es', o'⟩ := m'
  unfold OM.get at hc
  unfold OM.change
  dsimp only at h ⊢
  congr 1
  generalize m.ents = es at h hc
  induction h with
  | nil => rfl
  | @cons e e' l l' he hl ih =>
    by_cases hk : e.1 = k
    · rw [List.find?_cons_of_pos (by simpa using hk)] at hc
      cases hc
    · rw [List.find?_cons_of_neg (by simpa using hk)] at hc
      rw [changeFirst, if_neg fun q => hk (he.2.trans q), ih hc]

theorem get_value {m : OM String α} {m' : OM String β} (h : followMap r m = some m') {k : String}
    {c : α} (hc : m.get k = some c) : ∃ u, r c = some u := by
  rw [followMap_some] at h
  obtain ⟨h, -⟩ := h
  unfold OM.get at hc
  obtain ⟨x, hx, rfl⟩ := Option.map_eq_some_iff.mp hc
  have hm := List.mem_of_find?_eq_some hx
  clear hx hc
  generalize m.ents = es at h hm
  generalize m'.ents = es' at h
  induction h with
  | nil => cases hm
  | @cons e e' l l' he hl ih =>
    rcases List.mem_cons.mp hm with rfl | hm
    · exact ⟨_, he.1⟩
    · exact ih hm

theorem get_mem {m : OM String α} {k : String} {c : α} (hc : m.get k = some c) :
    ∃ e ∈ m.ents, e.2 = c := by
  unfold OM.get at hc
  obtain ⟨x, hx, rfl⟩ := Option.map_eq_some_iff.mp hc
  exact ⟨x, List.mem_of_find?_eq_some hx, rfl⟩

/-- The change of an entry depends on its value only. -/
theorem change_congr {m : OM String α} {m' : OM String β} (h : followMap r m = some m') {k : String}
    {c : α} (hc : m.get k = some c) {u : β} (hu : r c = some u) (g : β → β) :
    m'.change k g = m'.change k fun _ => g u := by
  rw [followMap_some] at h
  obtain ⟨h, -⟩ := h
  unfold OM.get at hc
  unfold OM.change
  congr 1
  generalize m.ents = es at h hc
  generalize m'.ents = es' at h
  induction h with
  | nil => rfl
  | @cons e e' l l' he hl ih =>
    rw [changeFirst, changeFirst]
    by_cases hk : e.1 = k
    · rw [if_pos (he.2.symm.trans hk), if_pos (he.2.symm.trans hk)]
      rw [List.find?_cons_of_pos (by simpa using hk)] at hc
      have hce : e.2 = c := Option.some.inj hc
      have := he.1
      rw [hce, hu] at this
      rw [Option.some.inj this]
    · rw [if_neg fun q => hk (he.2.trans q), if_neg fun q => hk (he.2.trans q)]
      rw [List.find?_cons_of_neg (by simpa using hk)] at hc
      rw [ih hc]

end entries

/-! ### What stays beside the part that changes -/

section parts
variable {H H' : Heap} {n : Nat} {a : Addr} {t : DT} {T : List Obj}

/-- A change below one part of a tree leaves the other parts. -/
theorem Heap.Tree.beside {o s : Obj} (ht : H.Tree o) (hw : H.Closed) (hq : Only T H H')
    (hp : H.Points o s) (hT : ∀ x ∈ T, H.Reaches s x) {y : Obj} (hy : H.Points o y) (hne : y ≠ s) :
    SameFrom H H' y :=
  only_sameFrom hw hq (hw _ _ hy) fun x hx hr => ht.apart hp hy (Ne.symm hne) x (hT x hx) hr

/-- It leaves the object itself. -/
theorem Heap.Tree.above {o s : Obj} (ht : H.Tree o) (hq : Only T H H') (ho : o.addr < H.next)
    (hp : H.Points o s) (hT : ∀ x ∈ T, H.Reaches s x) : Same H H' o :=
  hq.same o ho fun hm => ht.acyclic .refl (TransGen.head' hp (hT o hm))

variable (hw : H.Closed) (ht : H.Tree (.ty a)) (hv : H.val n a = some t) (ha : a < H.next)
include hw ht hv ha

theorem part_properties {m : Addr} (hg : H.get a .properties = some (.tm m)) (hq : Only T H H')
    (hT : ∀ x ∈ T, H.Reaches (.tm m) x) :
    ∃ ps, H.typeMap n m = some ps ∧ (∀ g, t.onProperties g = t.onProperties fun _ => g ps) ∧
      ∀ ps', H'.typeMap n m = some ps' → H'.val (n + 1) a = some (t.onProperties fun _ => ps') := by
  have hp := get_points hg
  have hty' : H.ty a = H'.ty a := ht.above hq ha hp hT
  have hk := fun y hy hne => ht.beside hw hq hp hT (y := y) hy hne
  cases hty : H.ty a with
  | basic i s x => simp only [Heap.get, hty] at hg; cases hg
  | ext h p b fa ps it =>
    cases b <;> simp only [Heap.get, hty] at hg <;> try (cases hg; done)
    obtain ⟨y, rfl, hg⟩ := Option.map_eq_some_iff.mp hg
    cases hg
    obtain ⟨fs, ps', it', rfl, hf, hps, hit⟩ := val_parts hv hty
    refine ⟨ps', hps, fun g => rfl, fun ps'' hnew => ?_⟩
    have hk : ∀ o, _ → o ≠ .tm m → SameFrom H H' o := fun o h hne =>
      hk o ((mem_refs_ext hty o).mpr h) hne
    rw [parts_val (a := a) (H := H') (hty'.symm.trans hty) (ps' := ps'')
      ((sameFrom_facetMap (hk (.fm fa) (by simp) (by simp)) n).trans hf) hnew
      ((sameFrom_items (it := it) n fun m hx => hk (.ty m) (by simp [hx]) (by simp)).trans hit)]
    have h1 : H.xm p.extra = H'.xm p.extra := hk (.xm p.extra) (by simp) (by simp) _ .refl
    have h2 : H.am p.annotations = H'.am p.annotations :=
      hk (.am p.annotations) (by simp) (by simp) _ .refl
    have h3 := sameFrom_exMap (hk (.em p.examples) (by simp) (by simp))
    have h4 : p.xml.map H.xo = p.xml.map H'.xo := by
      cases hx : p.xml with
      | none => rfl
      | some x => exact congrArg some (hk (.xo x) (by simp [hx]) (by simp) _ .refl)
    have h5 : p.example.map H.ex = p.example.map H'.ex := by
      cases hx : p.example with
      | none => rfl
      | some x => exact congrArg some (hk (.ex x) (by simp [hx]) (by simp) _ .refl)
    rw [exMap_hdr, exMap_hdr, ← h1, ← h2, h3, ← h4, ← h5]
    rfl

theorem part_facets {m : Addr} (hg : H.get a .facets = some (.fm m)) (hq : Only T H H')
    (hT : ∀ x ∈ T, H.Reaches (.fm m) x) :
    ∃ fs, H.facetMap n m = some fs ∧ (∀ g, t.onFacets g = t.onFacets fun _ => g fs) ∧
      ∀ fs', H'.facetMap n m = some fs' → H'.val (n + 1) a = some (t.onFacets fun _ => fs') := by
  have hp := get_points hg
  have hty' : H.ty a = H'.ty a := ht.above hq ha hp hT
  have hk := fun y hy hne => ht.beside hw hq hp hT (y := y) hy hne
  cases hty : H.ty a with
  | basic i s x => simp only [Heap.get, hty] at hg; cases hg
  | ext h p b fa ps it =>
    simp only [Heap.get, hty] at hg
    cases hg
    obtain ⟨fs, ps', it', rfl, hf, hps, hit⟩ := val_parts hv hty
    refine ⟨fs, hf, fun g => rfl, fun fs' hnew => ?_⟩
    have hk : ∀ o, _ → o ≠ .fm m → SameFrom H H' o := fun o h hne =>
      hk o ((mem_refs_ext hty o).mpr h) hne
    rw [parts_val (a := a) (H := H') (hty'.symm.trans hty) hnew
      ((sameFrom_props (ps := ps) n fun m hx => hk (.tm m) (by simp [hx]) (by simp)).trans hps)
      ((sameFrom_items (it := it) n fun m hx => hk (.ty m) (by simp [hx]) (by simp)).trans hit)]
    have h1 : H.xm p.extra = H'.xm p.extra := hk (.xm p.extra) (by simp) (by simp) _ .refl
    have h2 : H.am p.annotations = H'.am p.annotations :=
      hk (.am p.annotations) (by simp) (by simp) _ .refl
    have h3 := sameFrom_exMap (hk (.em p.examples) (by simp) (by simp))
    have h4 : p.xml.map H.xo = p.xml.map H'.xo := by
      cases hx : p.xml with
      | none => rfl
      | some x => exact congrArg some (hk (.xo x) (by simp [hx]) (by simp) _ .refl)
    have h5 : p.example.map H.ex = p.example.map H'.ex := by
      cases hx : p.example with
      | none => rfl
      | some x => exact congrArg some (hk (.ex x) (by simp [hx]) (by simp) _ .refl)
    rw [exMap_hdr, exMap_hdr, ← h1, ← h2, h3, ← h4, ← h5]
    rfl

theorem part_examples {m : Addr} (hg : H.get a .examples = some (.em m)) (hq : Only T H H')
    (hT : ∀ x ∈ T, H.Reaches (.em m) x) :
    (∀ g : OM String Example → OM String Example,
      t.editHdr (fun h => { h with examples := g h.examples }) =
        t.editHdr fun h => { h with examples := g (H.exMap m) }) ∧
      H'.val (n + 1) a = some (t.editHdr fun h => { h with examples := H'.exMap m }) := by
  have hp := get_points hg
  have hty' : H.ty a = H'.ty a := ht.above hq ha hp hT
  have hk := fun y hy hne => ht.beside hw hq hp hT (y := y) hy hne
  cases hty : H.ty a with
  | basic i s x => simp only [Heap.get, hty] at hg; cases hg
  | ext h p b fa ps it =>
    simp only [Heap.get, hty] at hg
    cases hg
    obtain ⟨fs, ps', it', rfl, hf, hps, hit⟩ := val_parts hv hty
    refine ⟨fun g => rfl, ?_⟩
    have hk : ∀ o, _ → o ≠ .em p.examples → SameFrom H H' o := fun o h hne =>
      hk o ((mem_refs_ext hty o).mpr h) hne
    rw [parts_val (a := a) (H := H') (hty'.symm.trans hty)
      ((sameFrom_facetMap (hk (.fm fa) (by simp) (by simp)) n).trans hf)
      ((sameFrom_props (ps := ps) n fun m hx => hk (.tm m) (by simp [hx]) (by simp)).trans hps)
      ((sameFrom_items (it := it) n fun m hx => hk (.ty m) (by simp [hx]) (by simp)).trans hit)]
    have h1 : H.xm p.extra = H'.xm p.extra := hk (.xm p.extra) (by simp) (by simp) _ .refl
    have h2 : H.am p.annotations = H'.am p.annotations :=
      hk (.am p.annotations) (by simp) (by simp) _ .refl
    have h4 : p.xml.map H.xo = p.xml.map H'.xo := by
      cases hx : p.xml with
      | none => rfl
      | some x => exact congrArg some (hk (.xo x) (by simp [hx]) (by simp) _ .refl)
    have h5 : p.example.map H.ex = p.example.map H'.ex := by
      cases hx : p.example with
      | none => rfl
      | some x => exact congrArg some (hk (.ex x) (by simp [hx]) (by simp) _ .refl)
    rw [exMap_hdr, exMap_hdr, ← h1, ← h2, ← h4, ← h5]
    rfl

end parts

end Verif.Doc
