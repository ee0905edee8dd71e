import Verif.Doc.HeapSession
import Verif.Props.Exact

/-! # Lemmas: whole programs, line by line -/

namespace Verif.Doc
open Relation

/-! ### Putting in -/

/-- Calls that give one object inside `o` a pointer to the data type at `b`. -/
structure Grafts (X : Xyml) (H : Heap) (o : Obj) (b : Addr) (as : List Act) : Prop where
  legal : H.LegalAll X as
  one : ∃ p, H.Reaches o p ∧ Only [p] H (H.run X as) ∧
    (∀ y, (H.run X as).Points p y → H.Points p y ∨ y = .ty b) ∧ ((H.run X as).refs p).Nodup

theorem Grafts.up {X : Xyml} {H : Heap} {o o' : Obj} {b : Addr} {as : List Act}
    (h : Grafts X H o b as) (hr : H.Reaches o' o) : Grafts X H o' b as :=
  let ⟨p, h1, h2⟩ := h.one
  ⟨h.legal, p, .trans hr h1, h2⟩

theorem grafts_nil (X : Xyml) {H : Heap} {o : Obj} (b : Addr) (ht : H.Tree o) : Grafts X H o b [] :=
  ⟨trivial, o, .refl, .refl _ _, fun _ h => Or.inl h, ht.nodup o .refl⟩

section place
variable {X : Xyml} {H : Heap} {c b : Addr} {t u : DT}

theorem legal_putType (hw : H.Closed) {m : Addr} (hm : m < H.next) (hb : b < H.next) (k : String) :
    H.Legal (.edit (.tm m fun y => y.put k b)) :=
  ⟨hm, legal_put (o := .tm m) hw (mk := .ty) rfl (fun _ => rfl) hb⟩

theorem grafts_put (hw : H.Closed) {o : Obj} {m : Addr} (ht : H.Tree (.tm m)) (hm : m < H.next)
    (hr : H.Reaches o (.tm m)) (hb : b < H.next) (hnb : ¬ H.Points (.tm m) (.ty b)) (k : String) :
    Grafts X H o b [.edit (.tm m fun y => y.put k b)] := by
  have hl := legal_putType hw hm hb k
  refine ⟨⟨hl, trivial⟩, .tm m, hr, (quiet_tm H m hl.2).only, fun y hy => ?_, ?_⟩
  · have hy' : y ∈ ((H.tm m).put k b).ents.map fun e => Obj.ty e.2 := by
      simpa only [Heap.run, List.foldl_cons, List.foldl_nil, Heap.act, Heap.edit, Heap.Points,
        Heap.refs, upd_self] using hy
    obtain ⟨e, he, rfl⟩ := List.mem_map.mp hy'
    rcases mem_put he with he | rfl
    · exact Or.inl (List.mem_map.mpr ⟨e, he, rfl⟩)
    · exact Or.inr rfl
  · have := ht.nodup _ .refl
    simp only [Heap.refs] at this
    simp only [Heap.run, List.foldl_cons, List.foldl_nil, Heap.act, Heap.edit, Heap.refs, upd_self]
    exact nodup_put this fun e he q => hnb (List.mem_map.mpr ⟨e, he, q⟩)

theorem typeMap_put (hw : H.Closed) {m : Addr} (ht : H.Tree (.tm m)) (hm : m < H.next)
    (hb : b < H.next) (hnr : ¬ H.Reaches (.ty b) (.tm m)) {n : Nat} {y : OM String DT}
    (hy : H.typeMap n m = some y) (hu : H.val n b = some u) (k : String) :
    (H.edit (.tm m fun y => y.put k b)).typeMap n m = some (y.put k u) := by
  have hop : followOp (H.val n) (.put k b) = some (.put k u) := by
    simp only [followOp, hu, Option.map_some]
  exact typeMap_call hw ht hy (op := .put k b) (legal_putType hw hm hb k)
    (fun c hc => by cases hc; exact ⟨hb, hnr⟩) hop

/-- Putting one data type into another. -/
theorem place_ok (h : TreeSim X c H t) (hb : TreeSim X b H u) (ha : H.Apart (.ty c) (.ty b))
    (p : Hop) : Grafts X H (.ty c) b (H.place c b p) ∧
      ∃ n, (H.run X (H.place c b p)).val n c = some (DT.placed u p t) := by
  have hw := h.closed
  obtain ⟨n1, hn1⟩ := h.val
  obtain ⟨n2, hn2⟩ := hb.val
  have hnil : ∀ {t' : DT}, t' = t → Grafts X H (.ty c) b [] ∧
      ∃ n, (H.run X []).val n c = some t' := fun e => ⟨grafts_nil X b h.tree, n1, e ▸ hn1⟩
  have hn := val_mono (Nat.le_max_left n1 n2) hn1
  have hu := val_mono (Nat.le_max_right n1 n2) hn2
  generalize max n1 n2 = n at hn hu
  cases p with
  | property k =>
    simp only [Heap.place, DT.placed]
    cases hg : H.getMap c .properties with
    | none =>
      refine hnil ?_
      split
      · exact properties_none h hg _
      · rfl
    | some m =>
      cases hty : H.ty b with
      | basic i s x =>
        refine hnil ?_
        cases n with
        | zero => cases hu
        | succ n =>
          simp only [Heap.val, Heap.view, hty] at hu
          cases hu
          rfl
      | ext hd pp bd f ps it =>
        have hpr : u.isProperty = true := by
          obtain ⟨_, _, _, rfl, _⟩ := val_parts hu hty
          rfl
        dsimp only
        rw [if_pos hpr]
        have hg : H.get c .properties = some (.tm m) := getMap_some hg
        have hpm := get_points hg
        have htm := h.tree.sub (.single hpm)
        have hm : m < H.next := hw _ _ hpm
        have hgr := grafts_put (X := X) hw htm hm (.single hpm) hb.lt
          (fun q => ha _ (.head hpm (.single q)) .refl) k
        refine ⟨hgr, n + 1, ?_⟩
        obtain ⟨y, hy, h1, h2⟩ := part_properties (H' := H.run X [.edit (.tm m fun y => y.put k b)])
          hw h.tree hn h.lt hg (quiet_tm H m (legal_putType hw hm hb.lt k).2).only
          (fun x hx => by rw [List.mem_singleton.mp hx]; exact .refl)
        rw [h1 fun y => y.put k u]
        exact h2 _ (typeMap_put hw htm hm hb.lt (fun q => ha _ (.single hpm) q) hy hu k)
  | items =>
    simp only [Heap.place]
    have hl : H.Legal (.onType c (.ptr (.setItems (some b)))) :=
      ⟨h.lt, fun _ q => by cases q; exact hb.lt⟩
    have hd : PtrOp.deref H n (.setItems (some b)) = some (.setItems (some u)) := by
      simp only [PtrOp.deref, followOpt, hu, Option.map_some]
    have hex := ptr_exact hw hn hl (fun o ho q => by cases ho; exact ha _ .refl q) hd
    have hrun : H.run X [.onType c (.ptr (.setItems (some b)))] =
        (H.setPtr c (.setItems (some b))).getD H := rfl
    cases hc : H.setPtr c (.setItems (some b)) with
    | none =>
      rw [hc] at hrun
      refine ⟨⟨⟨hl, trivial⟩, .ty c, .refl, ?_, ?_, ?_⟩, n, ?_⟩
      · rw [hrun]; exact .refl _ _
      · rw [hrun]; exact fun _ q => Or.inl q
      · rw [hrun]; exact nodup_ty H c
      · rw [hrun]
        refine hn.trans (congrArg some ?_)
        have := hex.2 hc
        cases t with
        | basic => rfl
        | ext hd bd fs ps it => cases bd <;> first | rfl | cases this
    | some H' =>
      rw [hc] at hrun
      refine ⟨⟨⟨hl, trivial⟩, .ty c, .refl, ?_, ?_, ?_⟩, n + 1, ?_⟩
      · rw [hrun]; exact (quiet_setPtr hl hc).only
      · rw [hrun]
        intro y hy
        simp only [Heap.setPtr] at hc
        split at hc
        · rename_i hd pp bd f ps it hty
          cases hc
          have hty' : ({ H with ty := upd H.ty c (.ext hd pp (.array bd) f ps (some b)) } : Heap).ty c =
              .ext hd pp (.array bd) f ps (some b) := upd_self _ _ _
          have := (mem_refs_ext hty' y).mp hy
          rcases this with q | ⟨x, e, q⟩
          · exact Or.inl ((mem_refs_ext hty y).mpr (Or.inl q))
          · cases e; exact Or.inr q.symm
        · cases hc
      · rw [hrun]; exact nodup_ty H' c
      · rw [hrun]
        obtain ⟨t', h1, h2⟩ := hex.1 H' hc
        refine h2.trans (congrArg some ?_)
        cases t with
        | basic => cases h1
        | ext hd bd fs ps it => cases bd <;> cases h1; rfl
  | facet k k' =>
    simp only [Heap.place, DT.placed]
    cases hx : H.facetAt c k with
    | none => exact hnil (facetAt_none h hx _)
    | some m =>
      obtain ⟨f, hg, hm', hp⟩ := facetAt_some hx
      have hpf := get_points hg
      have hr : H.Reaches (.ty c) (.tm m) := .head hpf (.single hp)
      have htm := h.tree.sub hr
      have hm : m < H.next := hw _ _ hp
      refine ⟨grafts_put (X := X) hw htm hm hr hb.lt (fun q => ha _ (.tail hr q) .refl) k', ?_⟩
      refine val_facetAt h hg hm' (quiet_tm H m (legal_putType hw hm hb.lt k').2).only
        (fun x hx => by rw [List.mem_singleton.mp hx]; exact .refl) (n0 := n2)
        fun n y hle hy => ?_
      exact typeMap_put hw htm hm hb.lt (fun q => ha _ hr q) hy (val_mono hle hn2) k'

/-- Putting a data type into what is held. -/
theorem placeAt_ok {r : Root} {v : RootVal} (h : RootSim X r H v) (hb : TreeSim X b H u)
    (ha : H.Apart r.obj (.ty b)) (p : Spot) : Grafts X H r.obj b (H.placeAt r b p) ∧
      ∃ n, (H.run X (H.placeAt r b p)).rootVal n r = some (v.placed u p) := by
  have hnil : ∀ {v' : RootVal}, v' = v → Grafts X H r.obj b [] ∧
      ∃ n, (H.run X []).rootVal n r = some v' := fun e =>
    ⟨grafts_nil X b h.tree, by rw [e]; exact h.val⟩
  cases p with
  | part w p =>
    simp only [Heap.placeAt, RootVal.placed]
    cases hc : H.find r w with
    | none => exact hnil (find_unchanged _ h hc)
    | some c =>
      obtain ⟨hr, u', -, hcs⟩ := (find_get h w).1 c hc
      have hac : H.Apart (.ty c) (.ty b) := fun x hx => ha x (.trans hr hx)
      have hpl := fun {t} (ht : TreeSim X c H t) => place_ok ht hb hac p
      refine ⟨(hpl hcs).1.up hr, ?_⟩
      obtain ⟨q, hq, ho, -, -⟩ := (hpl hcs).1.one
      exact find_change ho (fun x hx => by rw [List.mem_singleton.mp hx]; exact hq)
        (fun t ht => (hpl ht).2) h hc
  | types k =>
    cases r with
    | type a =>
      refine hnil ?_
      obtain ⟨n, hn⟩ := h.val
      obtain ⟨t, -, rfl⟩ := Option.map_eq_some_iff.mp hn
      rfl
    | doc x =>
      obtain ⟨n1, hn1⟩ := h.val
      obtain ⟨d, hd1, rfl⟩ := Option.map_eq_some_iff.mp hn1
      obtain ⟨n2, hn2⟩ := hb.val
      have hd := docVal_mono (Nat.le_max_left n1 n2) hd1
      have hu := val_mono (Nat.le_max_right n1 n2) hn2
      generalize max n1 n2 = n at hd hu
      obtain ⟨m, hm, hty⟩ := docVal_types hd
      simp only [Heap.placeAt, hm, RootVal.placed]
      have hw := h.reach.closed
      have hpm := sec_points hm
      have htm := h.tree.sub (.single hpm)
      have hlt : m < H.next := hw _ _ hpm
      refine ⟨grafts_put (X := X) hw htm hlt (.single hpm) hb.lt
        (fun q => ha _ (.head hpm (.single q)) .refl) k, n, ?_⟩
      exact congrArg (Option.map RootVal.doc) (part_types (g := fun y => y.put k u) hw h.tree hd h.lt hm
        (quiet_tm H m (legal_putType hw hlt hb.lt k).2).only
        (fun x hx => by rw [List.mem_singleton.mp hx]; exact .refl)
        (typeMap_put hw htm hlt hb.lt (fun q => ha _ (.single hpm) q) hty hu k))

end place

/-! ### Taking out -/

/-- Calls that take the pointer to the data type at `b` from one object inside `o`. -/
structure Cuts (X : Xyml) (H : Heap) (o : Obj) (b : Addr) (as : List Act) : Prop where
  one : ∃ p, H.Reaches o p ∧ H.Points p (.ty b) ∧ Only [p] H (H.run X as) ∧
    (∀ y, (H.run X as).Points p y → H.Points p y) ∧ ¬ (H.run X as).Points p (.ty b)

theorem Cuts.up {X : Xyml} {H : Heap} {o o' : Obj} {b : Addr} {as : List Act}
    (h : Cuts X H o b as) (hr : H.Reaches o' o) : Cuts X H o' b as :=
  let ⟨p, h1, h2⟩ := h.one
  ⟨p, .trans hr h1, h2⟩

section take
variable {X : Xyml} {H : Heap} {c b : Addr} {t : DT}

theorem cuts_delete (hw : H.Closed) {o : Obj} {m : Addr} (ht : H.Tree (.tm m))
    (hr : H.Reaches o (.tm m)) {k : String} (hc : (H.tm m).get k = some b) :
    Cuts X H o b [.edit (.tm m fun y => y.call (.delete k))] := by
  have hsub := sub_call (H.tm m) (op := .delete k) (Or.inl ⟨k, rfl⟩)
  have hents : ((H.tm m).call (.delete k)).ents = (H.tm m).ents.filter fun e => !(e.1 == k) := by
    simp only [OM.call, spec_step]
    rfl
  have hpts : ∀ y, (H.run X [.edit (.tm m fun y => y.call (.delete k))]).Points (.tm m) y ↔
      y ∈ ((H.tm m).call (.delete k)).ents.map fun e => Obj.ty e.2 := fun y => by
    simp only [Heap.run, List.foldl_cons, List.foldl_nil, Heap.act, Heap.edit, Heap.Points,
      Heap.refs, upd_self]
  refine ⟨.tm m, hr, tm_entry hc, ?_, fun y hy => ?_, fun hy => ?_⟩
  · exact (quiet_tm H m fun e he =>
      hw (.tm m) (.ty e.2) (List.mem_map.mpr ⟨e, hsub.subset he, rfl⟩)).only
  · exact (hsub.map _).subset ((hpts y).mp hy)
  · obtain ⟨e, he, hq⟩ := List.mem_map.mp ((hpts _).mp hy)
    rw [hents, List.mem_filter] at he
    unfold OM.get at hc
    obtain ⟨e0, h0, hb⟩ := Option.map_eq_some_iff.mp hc
    have hm0 := List.mem_of_find?_eq_some h0
    have hk0 := List.find?_some h0
    have : e = e0 := List.inj_on_of_nodup_map (tm_nodup ht) he.1 hm0 ((Obj.ty.inj hq).trans hb.symm)
    subst this
    simp_all

theorem drop_cuts (h : TreeSim X c H t) {p : Hop} (hb : H.hop c p = some b) :
    Cuts X H (.ty c) b (p.drop.acts X H c) := by
  have hw := h.closed
  cases p with
  | property k =>
    obtain ⟨m, hg, hc⟩ := hop_property hb
    have hpm := get_points hg
    have hgm : H.getMap c .properties = some m := by simp only [Heap.getMap, hg, Option.map_some, Obj.addr]
    simp only [Hop.drop, TypeStep.acts, hgm]
    exact cuts_delete hw (h.tree.sub (.single hpm)) (.single hpm) hc
  | items =>
    have hg := hop_items hb
    have hpb := get_points hg
    have hrun : H.run X (Hop.items.drop.acts X H c) = (H.setPtr c (.setItems none)).getD H := rfl
    have hl : H.Legal (.onType c (.ptr (.setItems none))) := ⟨h.lt, fun _ q => by cases q⟩
    cases hty : H.ty c with
    | basic i s x => simp only [Heap.get, hty] at hg; cases hg
    | ext hd pp bd f ps it =>
      cases bd <;> simp only [Heap.get, hty] at hg <;> try (cases hg)
      rename_i bd
      have hset : H.setPtr c (.setItems none) =
          some { H with ty := upd H.ty c (.ext hd pp (.array bd) f ps none) } := by
        simp only [Heap.setPtr, hty]
      rw [hset] at hrun
      have hty' : ({ H with ty := upd H.ty c (.ext hd pp (.array bd) f ps none) } : Heap).ty c =
          .ext hd pp (.array bd) f ps none := upd_self _ _ _
      refine ⟨.ty c, .refl, hpb, ?_, fun y hy => ?_, fun hy => ?_⟩
      · rw [hrun]; exact (quiet_setPtr hl hset).only
      · rw [hrun] at hy
        rcases (mem_refs_ext hty' y).mp hy with q | ⟨x, e, _⟩
        · exact (mem_refs_ext hty y).mpr (Or.inl q)
        · cases e
      · rw [hrun] at hy
        rcases (mem_refs_ext hty' _).mp hy with ((((q | q | q | q) | ⟨_, _, q⟩) | ⟨_, _, q⟩) |
          ⟨_, _, q⟩) | ⟨_, q, _⟩ <;> cases q
  | facet k k' =>
    obtain ⟨m, u, hg, hu, hc⟩ := hop_facet hb
    have hpm := get_points hg
    have hfa : H.facetAt c k = some u := by
      simp only [Heap.facetAt, Heap.getMap, hg, Option.map_some, Obj.addr, Option.bind_some, hu]
    have hr : H.Reaches (.ty c) (.tm u) := .head hpm (.single (facetMap_entry hu))
    simp only [Hop.drop, TypeStep.acts, hfa]
    exact cuts_delete hw (h.tree.sub hr) hr hc

theorem dropAt_cuts {r : Root} {v : RootVal} (h : RootSim X r H v) {p : Spot}
    (hb : H.at r p = some b) : Cuts X H r.obj b (p.drop.acts X H r) := by
  cases p with
  | part w p =>
    obtain ⟨c, hc, hcb⟩ := Option.bind_eq_some_iff.mp hb
    obtain ⟨hr, u, -, hu⟩ := (find_get h w).1 c hc
    have := (drop_cuts hu hcb).up hr
    cases r with
    | type a =>
      cases w with
      | inside hs =>
        have hc' : H.walk hs a = some c := hc
        simpa only [Spot.drop, RootStep.acts, hc'] using this
      | declared k hs => cases hc
    | doc x =>
      cases w with
      | inside hs => cases hc
      | declared k hs =>
        simp only [Heap.find] at hc
        simp only [Spot.drop, RootStep.acts]
        split at hc
        · rename_i m hm
          split at hc
          · rename_i a ha
            simpa only [hm, ha, hc] using this
          · cases hc
        · cases hc
  | types k =>
    cases r with
    | type a => cases hb
    | doc x =>
      simp only [Heap.at, Heap.find] at hb
      split at hb
      · rename_i m hm
        split at hb
        · rename_i a ha
          cases hb
          have hpm := sec_points hm
          simp only [Spot.drop, RootStep.acts, DocStep.acts, hm]
          exact cuts_delete h.reach.closed (h.tree.sub (.single hpm)) (.single hpm) ha
        · cases hb
      · cases hb

end take

/-! ### Variables -/

section vars
variable {α : Type}

theorem held_set_ne (l : List (Option α)) {i j : Nat} (h : i ≠ j) (x : Option α) :
    held (l.set j x) i = held l i := by
  simp only [held, List.getElem?_set_ne (Ne.symm h)]

theorem held_set_self {l : List (Option α)} {i : Nat} {a : α} (h : held l i = some a)
    (x : Option α) : held (l.set i x) i = x := by
  have hlt : i < l.length := by
    by_contra hn
    simp only [held, List.getElem?_eq_none (Nat.le_of_not_lt hn)] at h
    cases h
  simp only [held, List.getElem?_set_self hlt, Option.join_some]

theorem held_push (l : List (Option α)) (x : Option α) (i : Nat) :
    held (l ++ [x]) i = if i = l.length then x else held l i := by
  split
  · rename_i h
    subst h
    simp only [held, List.getElem?_concat_length, Option.join_some]
  · rename_i h
    rcases Nat.lt_or_gt_of_ne h with h | h
    · simp only [held, List.getElem?_append_left h]
    · have h1 : (l ++ [x])[i]? = none := List.getElem?_eq_none (by simp; omega)
      have h2 : l[i]? = none := List.getElem?_eq_none (by omega)
      simp only [held, h1, h2]

theorem held_len {l : List (Option α)} : held l l.length = none := by
  simp only [held, List.getElem?_eq_none (Nat.le_refl _)]
  rfl

end vars

/-- What a variable holds stands for the value. -/
def Agree (X : Xyml) (H : Heap) : Option Root → Option RootVal → Prop
  | none, none => True
  | some r, some v => RootSim X r H v
  | _, _ => False

theorem Agree.some {X : Xyml} {H : Heap} {r : Root} {y : Option RootVal} (h : Agree X H (some r) y) :
    ∃ v, y = .some v ∧ RootSim X r H v := by
  cases y with
  | none => cases h
  | some v => exact ⟨v, rfl, h⟩

theorem Agree.none {X : Xyml} {H : Heap} {y : Option RootVal} (h : Agree X H none y) :
    y = Option.none := by
  cases y with
  | none => rfl
  | some v => cases h

/-- There is one value. -/
theorem rootVal_unique {H : Heap} {n m : Nat} {r : Root} {v w : RootVal}
    (h : H.rootVal n r = some v) (h' : H.rootVal m r = some w) : v = w := by
  cases r with
  | type a =>
    obtain ⟨t, ht, rfl⟩ := Option.map_eq_some_iff.mp h
    obtain ⟨u, hu, rfl⟩ := Option.map_eq_some_iff.mp h'
    rw [val_unique ht hu]
  | doc x =>
    obtain ⟨t, ht, rfl⟩ := Option.map_eq_some_iff.mp h
    obtain ⟨u, hu, rfl⟩ := Option.map_eq_some_iff.mp h'
    have h1 := docVal_mono (Nat.le_max_left n m) ht
    have h2 := docVal_mono (Nat.le_max_right n m) hu
    rw [h1] at h2
    cases h2
    rfl

/-- The variables of a program hold trees that share nothing. -/
structure Holding (X : Xyml) (H : Heap) (rs : List (Option Root)) (vs : List (Option RootVal)) :
    Prop where
  reach : Reachable X H
  len : rs.length = vs.length
  sim : ∀ i, Agree X H (held rs i) (held vs i)
  apart : ∀ i j r r', i ≠ j → held rs i = some r → held rs j = some r' → H.Apart r.obj r'.obj

theorem RootSim.same {X : Xyml} {r : Root} {H H' : Heap} {v : RootVal} (h : RootSim X r H v)
    (hr : Reachable X H') (hn : H.next ≤ H'.next) (hs : SameFrom H H' r.obj) : RootSim X r H' v := by
  refine ⟨hr, Nat.lt_of_lt_of_le h.lt hn, sameFrom_tree hs h.tree, ?_⟩
  obtain ⟨n, hn⟩ := h.val
  refine ⟨n, ?_⟩
  rw [← hn]
  cases r with
  | type a => simp only [Heap.rootVal, sameFrom_val n hs]
  | doc x =>
    cases x with
    | api d => simp only [Heap.rootVal, Heap.docVal, sameFrom_apiVal n hs]
    | lib d => simp only [Heap.rootVal, Heap.docVal, sameFrom_libVal n hs]

section lines
variable {X : Xyml} {H : Heap} {rs : List (Option Root)} {vs : List (Option RootVal)}

/-- One more variable. -/
theorem live_push (h : Holding X H rs vs) {x : Option Root} {y : Option RootVal} (hxy : Agree X H x y)
    (ha : ∀ r i r', x = some r → held rs i = some r' → H.Apart r.obj r'.obj) :
    Holding X H (rs ++ [x]) (vs ++ [y]) := by
  refine ⟨h.reach, by simp [h.len], fun i => ?_, fun i j r r' hij hi hj => ?_⟩
  · rw [held_push, held_push, h.len]
    split
    · exact hxy
    · exact h.sim i
  · rw [held_push] at hi hj
    split at hi
    · split at hj
      · omega
      · exact ha r j r' hi hj
    · split at hj
      · exact apart_symm (ha r' i r hj hi)
      · exact h.apart i j r r' hij hi hj

/-- New objects change nothing. -/
theorem live_extends (h : Holding X H rs vs) {H' : Heap} (hr : Reachable X H') (he : Extends H H') :
    Holding X H' rs vs := by
  have hw := h.reach.closed
  have hlt : ∀ {i r}, held rs i = some r → r.obj.addr < H.next := fun {i r} hi => by
    have := h.sim i
    rw [hi] at this
    obtain ⟨v, -, hv⟩ := this.some
    exact hv.lt
  refine ⟨hr, h.len, fun i => ?_, fun i j r r' hij hi hj => ?_⟩
  · have := h.sim i
    revert this
    cases hi : held rs i with
    | none => cases held vs i <;> exact id
    | some r =>
      cases held vs i with
      | none => exact id
      | some v => exact fun q => RootSim.same q hr he.next (extends_sameFrom hw he (hlt hi))
  · exact sameFrom_apart (extends_sameFrom hw he (hlt hi)) (extends_sameFrom hw he (hlt hj))
      (h.apart i j r r' hij hi hj)

theorem make_ok (hr : Reachable X H) (m : Make) : Reachable X (H.act X m.act) ∧
    Extends H (H.act X m.act) ∧ Agree X (H.act X m.act) (m.root X H) (m.val X) ∧
    ∀ r o, m.root X H = some r → o.addr < H.next → (H.act X m.act).Apart r.obj o := by
  have hw := hr.closed
  have hstore : ∀ {s : Act} (t : DT), H.Legal s → H.act X s = (H.storeT t).2 →
      Reachable X (H.act X s) ∧ Extends H (H.act X s) ∧
      RootSim X (.type (H.storeT t).1) (H.act X s) (.type t) ∧
      ∀ o, o.addr < H.next → (H.act X s).Apart (.ty (H.storeT t).1) o := by
    intro s t hl e
    have hr' : Reachable X (H.act X s) := .act s hr hl
    rw [e] at hr' ⊢
    have hs := storeT_ok t H
    obtain ⟨n, hn⟩ := hs.val
    exact ⟨hr', hs.ext, ⟨hr', hs.above.self.2, storeT_tree t H, n, by
      simp only [Heap.rootVal, hn, Option.map_some]⟩,
      fun o ho => apart_symm (Verif.Props.apart_new hw hs.ext hs.above ho)⟩
  cases m with
  | api =>
    have h := Verif.Props.C75_new_api hr
    have hr' : Reachable X (H.act X .newApi) := .act _ hr trivial
    refine ⟨hr', (quiet_newApi H).only.extends, ⟨hr', ?_, tree_newApi H, 0, ?_⟩, fun r o e ho => ?_⟩
    · exact Nat.lt_add_of_pos_right (by decide)
    · exact congrArg (Option.map RootVal.doc) h.2.1
    · cases e
      exact apart_symm (h.2.2 o ho)
  | lib =>
    have h := Verif.Props.C75_new_lib hr
    have hr' : Reachable X (H.act X .newLib) := .act _ hr trivial
    refine ⟨hr', (quiet_newLib H).only.extends, ⟨hr', ?_, tree_newLib H, 0, ?_⟩, fun r o e ho => ?_⟩
    · exact Nat.lt_add_of_pos_right (by decide)
    · exact congrArg (Option.map RootVal.doc) h.2.1
    · cases e
      exact apart_symm (h.2.2 o ho)
  | type k =>
    obtain ⟨h1, h2, h3, h4⟩ := hstore (s := .newType k) (DT.new k) trivial rfl
    exact ⟨h1, h2, h3, fun r o e ho => by cases e; exact h4 o ho⟩
  | read v =>
    simp only [Make.act, Make.root, Make.val]
    cases ht : hat X v with
    | ok t =>
      obtain ⟨h1, h2, h3, h4⟩ := hstore (s := .parseType v) t trivial (by simp only [Heap.act, ht])
      exact ⟨h1, h2, h3, fun r o e ho => by cases e; exact h4 o ho⟩
    | _ =>
      have e : H.act X (.parseType v) = H := by simp only [Heap.act, ht]
      rw [e]
      exact ⟨hr, ⟨Nat.le_refl _, fun o _ => same_refl H o⟩, trivial, fun r o q => by cases q⟩

/-- A step on what a variable holds. -/
theorem live_work (h : Holding X H rs vs) {i : Nat} {r : Root} {v : RootVal} (hr : held rs i = some r)
    (hv : held vs i = some v) (st : RootStep) :
    Holding X (H.run X (st.acts X H r)) rs (vs.set i (some (v.step X st))) := by
  have hsim : ∀ {j r'}, held rs j = some r' → ∃ v', held vs j = some v' ∧ RootSim X r' H v' :=
    fun {j r'} hj => by
      have := h.sim j
      rw [hj] at this
      exact this.some
  have hs : RootSim X r H v := by
    obtain ⟨v', h1, h2⟩ := hsim hr
    rw [hv] at h1
    cases h1
    exact h2
  obtain ⟨hm, hval⟩ := rootStep_ok hs st
  have hreach := reachable_run h.reach hm.legal
  refine ⟨hreach, by simp [h.len], fun j => ?_, fun j k r1 r2 hjk hj hk => ?_⟩
  · by_cases hji : j = i
    · subst hji
      rw [hr, held_set_self hv]
      exact ⟨hreach, Nat.lt_of_lt_of_le hs.lt hm.sprouts.by_.next, hm.sprouts.tree _ hs.lt hs.tree,
        hval⟩
    · rw [held_set_ne _ hji]
      cases hj : held rs j with
      | none =>
        have := h.sim j
        rw [hj] at this
        rw [this.none]
        exact trivial
      | some r' =>
        obtain ⟨v', h1, h2⟩ := hsim hj
        rw [h1]
        exact h2.elsewhere hm (h.apart i j r r' (Ne.symm hji) hr hj)
  · obtain ⟨_, -, h1⟩ := hsim hj
    obtain ⟨_, -, h2⟩ := hsim hk
    exact hm.sprouts.by_.apart _ _ h1.lt h2.lt (h.apart j k r1 r2 hjk hj hk)

/-- What one variable holds becomes part of what another holds. -/
theorem live_give (h : Holding X H rs vs) {i j : Nat} (hij : i ≠ j) {r : Root} {b : Addr} {v : RootVal}
    {u : DT} (hri : held rs i = some r) (hrj : held rs j = some (.type b))
    (hvi : held vs i = some v) (hvj : held vs j = some (.type u)) (p : Spot) :
    Holding X (H.run X (H.placeAt r b p)) (rs.set j none)
      ((vs.set i (some (v.placed u p))).set j none) := by
  have hw := h.reach.closed
  have hsim : ∀ {k r'}, held rs k = some r' → ∃ v', held vs k = some v' ∧ RootSim X r' H v' :=
    fun {k r'} hk => by
      have := h.sim k
      rw [hk] at this
      exact this.some
  have hs : RootSim X r H v := by
    obtain ⟨v', h1, h2⟩ := hsim hri
    rw [hvi] at h1
    cases h1
    exact h2
  have hsb : RootSim X (.type b) H (.type u) := by
    obtain ⟨v', h1, h2⟩ := hsim hrj
    rw [hvj] at h1
    cases h1
    exact h2
  have hb : TreeSim X b H u := by
    obtain ⟨n, hn⟩ := hsb.val
    obtain ⟨t, ht, e⟩ := Option.map_eq_some_iff.mp hn
    cases e
    exact ⟨hsb.reach, hsb.lt, hsb.tree, n, ht⟩
  have ha := h.apart i j r _ hij hri hrj
  obtain ⟨hg, hval⟩ := placeAt_ok hs hb ha p
  obtain ⟨q, hq, ho, hp, hn⟩ := hg.one
  have hreach := reachable_run h.reach hg.legal
  have hset : ∀ {k r'}, held (rs.set j none) k = some r' → k ≠ j ∧ held rs k = some r' :=
    fun {k r'} hk => by
      by_cases hkj : k = j
      · subst hkj
        rw [held_set_self hrj] at hk
        cases hk
      · rw [held_set_ne _ hkj] at hk
        exact ⟨hkj, hk⟩
  have hsame : ∀ {k r'}, k ≠ i → held rs k = some r' →
      SameFrom H (H.run X (H.placeAt r b p)) r'.obj := fun {k r'} hki hk => by
    obtain ⟨v', -, h2⟩ := hsim hk
    refine only_sameFrom hw ho h2.lt fun x hx hr => ?_
    rw [List.mem_singleton.mp hx] at hr
    exact h.apart k i r' r hki hk hri q hr hq
  have hother : ∀ {k r'}, k ≠ i → k ≠ j → held rs k = some r' →
      (H.run X (H.placeAt r b p)).Apart r.obj r'.obj := fun {k r'} hki hkj hk x hx hx' => by
    have hx' := (sameFrom_reaches (hsame hki hk)).mpr hx'
    rcases graft_reaches hw ho hp hs.lt hb.lt hx with h1 | h1
    · exact h.apart i k r r' (Ne.symm hki) hri hk x h1 hx'
    · exact h.apart j k _ r' (Ne.symm hkj) hrj hk x h1 hx'
  refine ⟨hreach, by simp [h.len], fun k => ?_, fun k l r1 r2 hkl hk hl => ?_⟩
  · by_cases hkj : k = j
    · subst hkj
      have hv' : held (vs.set i (some (v.placed u p))) k = some (.type u) := by
        rw [held_set_ne _ (Ne.symm hij), hvj]
      rw [held_set_self hrj, held_set_self hv']
      exact trivial
    · rw [held_set_ne _ hkj, held_set_ne _ hkj]
      by_cases hki : k = i
      · subst hki
        rw [hri, held_set_self hvi]
        exact ⟨hreach, Nat.lt_of_lt_of_le hs.lt ho.next,
          graft_tree hw ho hp hn hs.lt hb.lt hs.tree hb.tree ha, hval⟩
      · rw [held_set_ne _ hki]
        cases hk : held rs k with
        | none =>
          have := h.sim k
          rw [hk] at this
          rw [this.none]
          exact trivial
        | some r' =>
          obtain ⟨v', h1, h2⟩ := hsim hk
          rw [h1]
          exact h2.same hreach ho.next (hsame hki hk)
  · obtain ⟨hkj, hk⟩ := hset hk
    obtain ⟨hlj, hl⟩ := hset hl
    by_cases hki : k = i
    · subst hki
      rw [hri] at hk
      cases hk
      exact hother (Ne.symm hkl) hlj hl
    · by_cases hli : l = i
      · subst hli
        rw [hri] at hl
        cases hl
        exact apart_symm (hother hki hkj hk)
      · exact sameFrom_apart (hsame hki hk) (hsame hli hl) (h.apart k l r1 r2 hkl hk hl)

/-- A part of what a variable holds is taken out. -/
theorem live_take (h : Holding X H rs vs) {i : Nat} {r : Root} {v : RootVal} (hr : held rs i = some r)
    (hv : held vs i = some v) (p : Spot) :
    Holding X (H.run X (p.drop.acts X H r)) (rs ++ [(H.at r p).map .type])
      (vs.set i (some (v.step X p.drop)) ++ [(v.at p).map .type]) := by
  have hw := h.reach.closed
  have hs : RootSim X r H v := by
    have := h.sim i
    rw [hr, hv] at this
    exact this
  have hwork := live_work h hr hv p.drop
  cases hb : H.at r p with
  | none =>
    have hn : v.at p = none := (at_get hs p).2 hb
    rw [hn]
    exact live_push hwork trivial fun r' _ _ q => by cases q
  | some b =>
    obtain ⟨hrb, u, hu, hbs⟩ := (at_get hs p).1 b hb
    rw [hu]
    obtain ⟨q, hq, hqb, ho, hp, hcut⟩ := (dropAt_cuts hs hb).one
    have hsame : SameFrom H (H.run X (p.drop.acts X H r)) (.ty b) :=
      prune_part hw ho hqb hq hs.tree
    obtain ⟨n, hn⟩ := hbs.val
    refine live_push hwork ?_ fun r' j r2 e hj => ?_
    · refine RootSim.same (r := .type b) (v := .type u) (H := H)
        ⟨h.reach, hbs.lt, hbs.tree, n, ?_⟩ hwork.reach ho.next hsame
      simp only [Heap.rootVal, hn, Option.map_some]
    · cases e
      intro x hx hx'
      have hx := (sameFrom_reaches hsame).mpr hx
      by_cases hji : j = i
      · subst hji
        rw [hr] at hj
        cases hj
        exact (prune_reaches hw ho hp hcut hqb hq hs.tree hs.lt hx').2 hx
      · have h2 := h.sim j
        rw [hj] at h2
        obtain ⟨v2, -, h2⟩ := h2.some
        have ha := h.apart i j r r2 (Ne.symm hji) hr hj
        have hs2 : SameFrom H (H.run X (p.drop.acts X H r)) r2.obj :=
          only_sameFrom hw ho h2.lt fun y hy hr2 => by
            rw [List.mem_singleton.mp hy] at hr2
            exact ha q hq hr2
        exact ha x (.trans hrb hx) ((sameFrom_reaches hs2).mpr hx')

end lines

/-- Every line. -/
theorem live_cmd {X : Xyml} {S : Heap × List (Option Root)} {vs : List (Option RootVal)}
    (h : Holding X S.1 S.2 vs) (c : Cmd) : Holding X (c.run X S).1 (c.run X S).2 (c.eval X vs) := by
  obtain ⟨H, rs⟩ := S
  have hsome : ∀ {i r}, held rs i = some r → ∃ v, held vs i = some v ∧ RootSim X r H v :=
    fun {i r} hi => by
      have := h.sim i
      rw [hi] at this
      exact this.some
  have hnone : ∀ {i}, held rs i = none → held vs i = none := fun {i} hi => by
    have := h.sim i
    rw [hi] at this
    exact this.none
  cases c with
  | make m =>
    obtain ⟨h1, h2, h3, h4⟩ := make_ok h.reach m
    refine live_push (live_extends h h1 h2) h3 fun r i r' e hi => ?_
    obtain ⟨v, -, hv⟩ := hsome hi
    exact h4 r _ e hv.lt
  | work i s =>
    simp only [Cmd.run, Cmd.eval]
    cases hi : held rs i with
    | none => rw [hnone hi]; exact h
    | some r =>
      obtain ⟨v, hv, -⟩ := hsome hi
      rw [hv]
      exact live_work h hi hv s
  | give i j p =>
    simp only [Cmd.run, Cmd.eval]
    by_cases hij : i = j
    · simp only [if_pos hij]; exact h
    · simp only [if_neg hij]
      cases hi : held rs i with
      | none => rw [hnone hi]; exact h
      | some r =>
        obtain ⟨v, hv, -⟩ := hsome hi
        rw [hv]
        cases hj : held rs j with
        | none => rw [hnone hj]; exact h
        | some r' =>
          obtain ⟨v', hv', hs'⟩ := hsome hj
          rw [hv']
          obtain ⟨n, hn⟩ := hs'.val
          cases r' with
          | doc x =>
            obtain ⟨d, -, rfl⟩ := Option.map_eq_some_iff.mp hn
            exact h
          | type b =>
            obtain ⟨t, -, rfl⟩ := Option.map_eq_some_iff.mp hn
            exact live_give h hij hi hj hv hv' p
  | take i p =>
    simp only [Cmd.run, Cmd.eval]
    cases hi : held rs i with
    | none => rw [hnone hi]; exact h
    | some r =>
      obtain ⟨v, hv, -⟩ := hsome hi
      rw [hv]
      exact live_take h hi hv p

theorem live_start (X : Xyml) : Holding X Heap.start [] [] :=
  ⟨.start, rfl, fun _ => trivial, fun _ _ _ _ _ h => by cases h⟩

theorem live_run (X : Xyml) (cs : List Cmd) :
    Holding X (runCmds X cs).1 (runCmds X cs).2 (evalCmds X cs) := by
  have : ∀ (cs : List Cmd) (S : Heap × List (Option Root)) (vs : List (Option RootVal)),
      Holding X S.1 S.2 vs → Holding X (cs.foldl (Cmd.run X) S).1 (cs.foldl (Cmd.run X) S).2
        (cs.foldl (Cmd.eval X) vs) := by
    intro cs
    induction cs with
    | nil => exact fun _ _ h => h
    | cons c cs ih => exact fun S vs h => ih _ _ (live_cmd h c)
  exact this cs (Heap.start, []) [] (live_start X)

end Verif.Doc
