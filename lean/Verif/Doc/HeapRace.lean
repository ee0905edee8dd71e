import Verif.Doc.HeapAlike
import Verif.Doc.HeapRaceSpec

/-!
# What the lines of a program read and write
-/

namespace Verif.Doc
open Relation

/-- The calls change only objects inside `o`. -/
def Stays (X : Xyml) (H : Heap) (o : Obj) (as : List Act) : Prop :=
  ∀ x ∈ H.touchesAll X as, H.Reaches o x

section
variable {X : Xyml} {Q : Obj → Prop} {H H' : Heap} {o : Obj} {a : Addr}

theorem stays_nil (X : Xyml) (H : Heap) (o : Obj) : Stays X H o [] := fun _ h => by cases h

theorem stays_one {s : Act} (h : ∀ x ∈ H.touches s, H.Reaches o x) : Stays X H o [s] := by
  intro x hx
  simp only [Heap.touchesAll, List.append_nil] at hx
  exact h x hx

theorem stays_edit {s : Act} {y : Obj} (h : H.touches s = [y]) (hr : H.Reaches o y) :
    Stays X H o [s] := stays_one fun x hx => by
  rw [h] at hx
  rw [List.mem_singleton.mp hx]
  exact hr

theorem stays_after {s s' : Act} {y : Obj} (h : H.touches s = [])
    (h' : (H.act X s).touches s' = [y]) (hr : H.Reaches o y) : Stays X H o [s, s'] := by
  intro x hx
  simp only [Heap.touchesAll, h, h', List.append_nil, List.nil_append] at hx
  rw [List.mem_singleton.mp hx]
  exact hr

theorem Stays.up {o' : Obj} {as : List Act} (h : Stays X H o as) (hr : H.Reaches o' o) :
    Stays X H o' as := fun x hx => hr.trans (h x hx)

theorem getMap_reaches {s : TypeSec} {m : Addr} (h : H.getMap a s = some m) :
    H.Reaches (.ty a) (s.mk m) := .single (get_points (getMap_some h))

theorem exampleAt_reaches {k : String} {x : Addr} (h : H.exampleAt a k = some x) :
    H.Reaches (.ty a) (.ex x) := by
  obtain ⟨m, h1, -, h3⟩ := exampleAt_some h
  exact .head (get_points h1) (.single h3)

theorem facetAt_reaches {k : String} {x : Addr} (h : H.facetAt a k = some x) :
    H.Reaches (.ty a) (.tm x) := by
  obtain ⟨m, h1, -, h3⟩ := facetAt_some h
  exact .head (get_points h1) (.single h3)

/-- A step on a data type changes only what is inside it. -/
theorem typeStep_stays (X : Xyml) (H : Heap) (a : Addr) (s : TypeStep) :
    Stays X H (.ty a) (s.acts X H a) := by
  have hp : ∀ v, H.touches (.parseType v) = [] := fun _ => rfl
  cases s <;> simp only [TypeStep.acts]
  case call op => exact stays_edit rfl .refl
  case unset s => exact stays_edit rfl .refl
  case load v =>
    refine stays_one fun x hx => ?_
    rcases List.mem_cons.mp hx with rfl | hx
    · exact .refl
    · exact .single (maps_points hx)
  case newXML => exact stays_after rfl rfl .refl
  case newExample => exact stays_after rfl rfl .refl
  case newItems v =>
    split
    · exact stays_after rfl rfl .refl
    · exact stays_one fun x hx => by cases hx
  case putExample k =>
    split
    · rename_i m hm; exact stays_after rfl rfl (getMap_reaches hm)
    · exact stays_nil X H _
  case putFacet k =>
    split
    · rename_i m hm; exact stays_after rfl rfl (getMap_reaches hm)
    · exact stays_nil X H _
  case putProperty k v =>
    split
    · rename_i m t hm ht
      split
      · exact stays_after rfl rfl (getMap_reaches hm)
      · exact stays_one fun x hx => by cases hx
    · exact stays_one fun x hx => by cases hx
  case putFacetType k k' v =>
    split
    · rename_i m t hm ht
      exact stays_after rfl rfl (facetAt_reaches hm)
    · exact stays_one fun x hx => by cases hx
  all_goals
    split
    · rename_i m hm
      first
        | exact stays_edit rfl (getMap_reaches hm)
        | exact stays_edit rfl (exampleAt_reaches hm)
        | exact stays_edit rfl (facetAt_reaches hm)
    · exact stays_nil X H _

theorem Alike.get (h : Alike Q H H') (ha : Q (.ty a)) (s : TypeSec) : H'.get a s = H.get a s := by
  simp only [Heap.get, h.ty a ha]

theorem Alike.getMap (h : Alike Q H H') (ha : Q (.ty a)) (s : TypeSec) :
    H'.getMap a s = H.getMap a s := by
  simp only [Heap.getMap, h.get ha]

theorem Alike.exampleAt (h : Alike Q H H') (hq : ∀ x, H.Reaches (.ty a) x → Q x) (k : String) :
    H'.exampleAt a k = H.exampleAt a k := by
  simp only [Heap.exampleAt, h.getMap (hq _ .refl)]
  cases hm : H.getMap a .examples with
  | none => rfl
  | some m => simp only [Option.bind_some, h.em m (hq _ (getMap_reaches hm))]

theorem Alike.facetAt (h : Alike Q H H') (hq : ∀ x, H.Reaches (.ty a) x → Q x) (k : String) :
    H'.facetAt a k = H.facetAt a k := by
  simp only [Heap.facetAt, h.getMap (hq _ .refl)]
  cases hm : H.getMap a .facets with
  | none => rfl
  | some m => simp only [Option.bind_some, h.fm m (hq _ (getMap_reaches hm))]

/-- Which calls a step on a data type consists of depends only on what is inside it. -/
theorem typeStep_alike (h : Alike Q H H') (hq : ∀ x, H.Reaches (.ty a) x → Q x) (s : TypeStep) :
    s.acts X H' a = s.acts X H a := by
  have ha := hq _ .refl
  cases s <;> simp only [TypeStep.acts, h.getMap ha, h.exampleAt hq, h.facetAt hq, h.next, h.ty a ha,
    (h.storeT _).1]

theorem Alike.sec (h : Alike Q H H') {x : Holder} (hx : Q x.obj) (s : Sec) :
    H'.sec x s = H.sec x s := by
  cases x with
  | api d => simp only [Heap.sec, h.api d hx]
  | lib d => simp only [Heap.sec, h.lib d hx]

theorem docStep_alike (h : Alike Q H H') {x : Holder} (hx : Q x.obj) (s : DocStep) :
    s.acts X H' x = s.acts X H x := by
  cases s <;> simp only [DocStep.acts, h.sec hx, (h.storeT _).1]

/-- A step on a document changes only what is inside it. -/
theorem docStep_stays (X : Xyml) (H : Heap) (x : Holder) (s : DocStep) :
    Stays X H x.obj (s.acts X H x) := by
  cases s <;> simp only [DocStep.acts]
  case onApi op =>
    cases x with
    | api d => exact stays_edit rfl .refl
    | lib d => exact stays_nil X H _
  case onLib op =>
    cases x with
    | api d => exact stays_nil X H _
    | lib d => exact stays_edit rfl .refl
  case unset s =>
    cases x <;> cases s <;> first | exact stays_nil X H _ | exact stays_edit rfl .refl
  case load v =>
    cases x with
    | api d =>
      refine stays_one fun x hx => ?_
      rcases List.mem_cons.mp hx with rfl | hx
      · exact .refl
      · exact .single hx
    | lib d =>
      refine stays_one fun x hx => ?_
      rcases List.mem_cons.mp hx with rfl | hx
      · exact .refl
      · exact .single hx
  case putType k v =>
    split
    · rename_i m t hm ht
      exact stays_after rfl rfl (.single (sec_points hm))
    · exact stays_one fun x hx => by cases hx
  all_goals
    split
    · rename_i m hm
      exact stays_edit rfl (.single (sec_points hm))
    · exact stays_nil X H _

theorem Alike.hop (h : Alike Q H H') (hq : ∀ x, H.Reaches (.ty a) x → Q x) (p : Hop) :
    H'.hop a p = H.hop a p := by
  have ha := hq _ .refl
  cases p with
  | property k =>
    simp only [Heap.hop, h.get ha]
    split
    · rename_i m hm; rw [h.tm m (hq _ (.single (get_points hm)))]
    · rfl
  | items => simp only [Heap.hop, h.get ha]
  | facet k k' =>
    simp only [Heap.hop, h.get ha]
    split
    · rename_i m hm
      rw [h.fm m (hq _ (.single (get_points hm)))]
      split
      · rename_i u hu
        rw [h.tm u (hq _ (.head (get_points hm) (.single (facetMap_entry hu))))]
      · rfl
    · rfl

theorem walk_inside {c : Addr} (hs : List Hop) : ∀ {a : Addr}, H.walk hs a = some c →
    H.Reaches (.ty a) (.ty c) := by
  induction hs with
  | nil => intro a h; cases h; exact .refl
  | cons p hs ih =>
    intro a h
    rw [Heap.walk] at h
    split at h
    · rename_i b hb
      exact (hop_reaches hb).trans (ih h)
    · cases h

theorem Alike.walk (h : Alike Q H H') (hs : List Hop) : ∀ {a : Addr},
    (∀ x, H.Reaches (.ty a) x → Q x) → H'.walk hs a = H.walk hs a := by
  induction hs with
  | nil => intro a _; rfl
  | cons p hs ih =>
    intro a hq
    rw [Heap.walk, Heap.walk, h.hop hq]
    split
    · rename_i b hb
      exact ih fun x hx => hq x ((hop_reaches hb).trans hx)
    · rfl

/-- Which calls a step consists of depends only on what is inside the data type or document. -/
theorem rootStep_alike (h : Alike Q H H') {r : Root} (hq : ∀ x, H.Reaches r.obj x → Q x)
    (s : RootStep) : s.acts X H' r = s.acts X H r := by
  cases r with
  | type a =>
    cases s with
    | inside hs s =>
      simp only [RootStep.acts, h.walk hs hq]
      split
      · rename_i c hc
        exact typeStep_alike h (fun x hx => hq x ((walk_inside hs hc).trans hx)) s
      · rfl
    | doc s => rfl
    | declared k hs s => rfl
  | doc x =>
    cases s with
    | inside hs s => rfl
    | doc s => exact docStep_alike h (hq _ .refl) s
    | declared k hs s =>
      simp only [RootStep.acts, h.sec (hq _ .refl)]
      split
      · rename_i m hm
        have hr : H.Reaches x.obj (.tm m) := .single (sec_points hm)
        rw [h.tm m (hq _ hr)]
        split
        · rename_i b hb
          have hrb := hr.tail (tm_entry hb)
          rw [h.walk hs fun x hx => hq x (hrb.trans hx)]
          split
          · rename_i c hc
            exact typeStep_alike h (fun x hx => hq x (hrb.trans ((walk_inside hs hc).trans hx))) s
          · rfl
        · rfl
      · rfl

/-- A step changes only what is inside the data type or document. -/
theorem rootStep_stays (X : Xyml) (H : Heap) (r : Root) (s : RootStep) :
    Stays X H r.obj (s.acts X H r) := by
  cases r with
  | type a =>
    cases s with
    | inside hs s =>
      simp only [RootStep.acts]
      split
      · rename_i c hc
        exact (typeStep_stays X H c s).up (walk_inside hs hc)
      · exact stays_nil X H _
    | doc s => exact stays_nil X H _
    | declared k hs s => exact stays_nil X H _
  | doc x =>
    cases s with
    | inside hs s => exact stays_nil X H _
    | doc s => exact docStep_stays X H x s
    | declared k hs s =>
      simp only [RootStep.acts]
      split
      · rename_i m hm
        have hr : H.Reaches x.obj (.tm m) := .single (sec_points hm)
        split
        · rename_i b hb
          split
          · rename_i c hc
            exact (typeStep_stays X H c s).up ((hr.tail (tm_entry hb)).trans (walk_inside hs hc))
          · exact stays_nil X H _
        · exact stays_nil X H _
      · exact stays_nil X H _

theorem find_inside {r : Root} {w : Way} {c : Addr} (h : H.find r w = some c) :
    H.Reaches r.obj (.ty c) := by
  cases r with
  | type a =>
    cases w with
    | inside hs => exact walk_inside hs h
    | declared k hs => cases h
  | doc x =>
    cases w with
    | inside hs => cases h
    | declared k hs =>
      simp only [Heap.find] at h
      split at h
      · rename_i m hm
        split at h
        · rename_i b hb
          exact .head (sec_points hm) (.head (tm_entry hb) (walk_inside hs h))
        · cases h
      · cases h

theorem Alike.find (h : Alike Q H H') {r : Root} (hq : ∀ x, H.Reaches r.obj x → Q x) (w : Way) :
    H'.find r w = H.find r w := by
  cases r with
  | type a =>
    cases w with
    | inside hs => exact h.walk hs hq
    | declared k hs => rfl
  | doc x =>
    cases w with
    | inside hs => rfl
    | declared k hs =>
      simp only [Heap.find, h.sec (hq _ .refl)]
      split
      · rename_i m hm
        have hr : H.Reaches x.obj (.tm m) := .single (sec_points hm)
        rw [h.tm m (hq _ hr)]
        split
        · rename_i b hb
          exact h.walk hs fun x hx => hq x ((hr.tail (tm_entry hb)).trans hx)
        · rfl
      · rfl

theorem Alike.at (h : Alike Q H H') {r : Root} (hq : ∀ x, H.Reaches r.obj x → Q x) (p : Spot) :
    H'.at r p = H.at r p := by
  cases p with
  | types k => exact h.find hq _
  | part w p =>
    simp only [Heap.at, h.find hq]
    cases hc : H.find r w with
    | none => rfl
    | some c =>
      simp only [Option.bind_some]
      exact h.hop (fun x hx => hq x ((find_inside hc).trans hx)) p

theorem placeAt_alike (h : Alike Q H H') {r : Root} (hq : ∀ x, H.Reaches r.obj x → Q x) {b : Addr}
    (hb : Q (.ty b)) (p : Spot) : H'.placeAt r b p = H.placeAt r b p := by
  cases p with
  | types k =>
    cases r with
    | type a => rfl
    | doc x => simp only [Heap.placeAt, h.sec (hq _ .refl)]
  | part w p =>
    simp only [Heap.placeAt, h.find hq]
    cases hc : H.find r w with
    | none => rfl
    | some c =>
      have hqc : ∀ x, H.Reaches (.ty c) x → Q x := fun x hx => hq x ((find_inside hc).trans hx)
      cases p with
      | property k => simp only [Heap.place, h.getMap (hqc _ .refl), h.ty b hb]
      | items => rfl
      | facet k k' => simp only [Heap.place, h.facetAt hqc]

theorem placeAt_stays (X : Xyml) (H : Heap) (r : Root) (b : Addr) (p : Spot) :
    Stays X H r.obj (H.placeAt r b p) := by
  cases p with
  | types k =>
    cases r with
    | type a => exact stays_nil X H _
    | doc x =>
      simp only [Heap.placeAt]
      split
      · rename_i m hm
        exact stays_edit rfl (.single (sec_points hm))
      · exact stays_nil X H _
  | part w p =>
    simp only [Heap.placeAt]
    split
    · rename_i c hc
      refine Stays.up ?_ (find_inside hc)
      cases p with
      | property k =>
        simp only [Heap.place]
        split
        · rename_i m _ _ _ _ _ _ hm _
          exact stays_edit rfl (getMap_reaches hm)
        · exact stays_nil X H _
      | items => exact stays_edit rfl .refl
      | facet k k' =>
        simp only [Heap.place]
        split
        · rename_i m hm
          exact stays_edit rfl (facetAt_reaches hm)
        · exact stays_nil X H _
    · exact stays_nil X H _

end

/-! ### Lines -/

section
variable {X : Xyml} {Q : Obj → Prop} {H H' : Heap} {rs : List (Option Root)}
  {vs : List (Option RootVal)}

theorem make_alike (h : Alike Q H H') (m : Make) :
    m.root X H' = m.root X H ∧ Alike Q (H.act X m.act) (H'.act X m.act) := by
  refine ⟨?_, h.act X (by cases m <;> exact trivial) fun o ho => by cases m <;> cases ho⟩
  cases m with
  | api => simp only [Make.root, h.next]
  | lib => simp only [Make.root, h.next]
  | type k => simp only [Make.root, (h.storeT _).1]
  | read v => simp only [Make.root, (h.storeT _).1]

/-- A line of a program reads only what its variables hold. -/
theorem line_alike (hh : Holding X H rs vs) (h : Alike Q H H') (hq : ∀ o, H.Owns rs o → Q o)
    (c : Cmd) : (c.run X (H', rs)).2 = (c.run X (H, rs)).2 ∧
      Alike Q (c.run X (H, rs)).1 (c.run X (H', rs)).1 := by
  have hown : ∀ {i r}, held rs i = some r → ∀ x, H.Reaches r.obj x → Q x :=
    fun hi x hx => hq x ⟨_, _, hi, hx⟩
  have hsim : ∀ {i r}, held rs i = some r → ∃ v, RootSim X r H v := fun {i r} hi => by
    have := hh.sim i
    rw [hi] at this
    obtain ⟨v, -, hv⟩ := this.some
    exact ⟨v, hv⟩
  cases c with
  | make m =>
    obtain ⟨h1, h2⟩ := make_alike (X := X) h m
    exact ⟨by simp only [Cmd.run, h1], h2⟩
  | work i s =>
    simp only [Cmd.run]
    cases hi : held rs i with
    | none => exact ⟨rfl, h⟩
    | some r =>
      obtain ⟨v, hv⟩ := hsim hi
      refine ⟨rfl, ?_⟩
      dsimp only
      rw [rootStep_alike h (hown hi)]
      exact h.run X _ (rootStep_ok hv s).1.legal fun o ho => hown hi o (rootStep_stays X H r s o ho)
  | give i j p =>
    simp only [Cmd.run]
    split
    · exact ⟨rfl, h⟩
    rename_i hij
    split
    · rename_i r b hi hj
      obtain ⟨v, hv⟩ := hsim hi
      obtain ⟨w, hw⟩ := hsim hj
      refine ⟨rfl, ?_⟩
      dsimp only
      rw [placeAt_alike h (hown hi) (hown hj _ .refl)]
      obtain ⟨n, hn⟩ := hw.val
      obtain ⟨u, hu, rfl⟩ := Option.map_eq_some_iff.mp hn
      have hb : TreeSim X b H u := ⟨hw.reach, hw.lt, hw.tree, n, hu⟩
      exact h.run X _ (placeAt_ok hv hb (hh.apart i j r _ hij hi hj) p).1.legal
        fun o ho => hown hi o (placeAt_stays X H r b p o ho)
    · exact ⟨rfl, h⟩
  | take i p =>
    simp only [Cmd.run]
    cases hi : held rs i with
    | none => exact ⟨rfl, h⟩
    | some r =>
      obtain ⟨v, hv⟩ := hsim hi
      dsimp only
      rw [rootStep_alike h (hown hi), h.at (hown hi)]
      exact ⟨rfl, h.run X _ (rootStep_ok hv p.drop).1.legal
        fun o ho => hown hi o (rootStep_stays X H r p.drop o ho)⟩

/-- A line of a program writes only to what its variables hold, and to new objects. -/
theorem line_only (hh : Holding X H rs vs) (c : Cmd) :
    ∃ T, Only T H (c.run X (H, rs)).1 ∧ ∀ o ∈ T, H.Owns rs o := by
  have hsim : ∀ {i r}, held rs i = some r → ∃ v, RootSim X r H v := fun {i r} hi => by
    have := hh.sim i
    rw [hi] at this
    obtain ⟨v, -, hv⟩ := this.some
    exact ⟨v, hv⟩
  have hnil : ∃ T, Only T H H ∧ ∀ o ∈ T, H.Owns rs o := ⟨[], .refl _ _, fun _ h => by cases h⟩
  have hstay : ∀ {i r as}, held rs i = some r → H.LegalAll X as → Stays X H r.obj as →
      ∃ T, Only T H (H.run X as) ∧ ∀ o ∈ T, H.Owns rs o := fun {i r as} hi hl hs =>
    ⟨_, (quiet_run hl).only, fun o ho => ⟨i, r, hi, hs o ho⟩⟩
  cases c with
  | make m => exact ⟨[], (make_ok hh.reach m).2.1.only, fun _ h => by cases h⟩
  | work i s =>
    simp only [Cmd.run]
    cases hi : held rs i with
    | none => exact hnil
    | some r =>
      obtain ⟨v, hv⟩ := hsim hi
      exact hstay hi (rootStep_ok hv s).1.legal (rootStep_stays X H r s)
  | give i j p =>
    simp only [Cmd.run]
    split
    · exact hnil
    rename_i hij
    split
    · rename_i r b hi hj
      obtain ⟨v, hv⟩ := hsim hi
      obtain ⟨w, hw⟩ := hsim hj
      obtain ⟨n, hn⟩ := hw.val
      obtain ⟨u, hu, rfl⟩ := Option.map_eq_some_iff.mp hn
      have hb : TreeSim X b H u := ⟨hw.reach, hw.lt, hw.tree, n, hu⟩
      exact hstay hi (placeAt_ok hv hb (hh.apart i j r _ hij hi hj) p).1.legal
        (placeAt_stays X H r b p)
    · exact hnil
  | take i p =>
    simp only [Cmd.run]
    cases hi : held rs i with
    | none => exact hnil
    | some r =>
      obtain ⟨v, hv⟩ := hsim hi
      exact hstay hi (rootStep_ok hv p.drop).1.legal (rootStep_stays X H r p.drop)

/-- After a line the variables hold only what they held before, and new objects. -/
theorem line_owns (hh : Holding X H rs vs) (c : Cmd) {o : Obj}
    (ho : (c.run X (H, rs)).1.Owns (c.run X (H, rs)).2 o) : H.Owns rs o ∨ H.next ≤ o.addr := by
  have hw := hh.reach.closed
  have hsim : ∀ {i r}, held rs i = some r → ∃ v, RootSim X r H v := fun {i r} hi => by
    have := hh.sim i
    rw [hi] at this
    obtain ⟨v, -, hv⟩ := this.some
    exact ⟨v, hv⟩
  have hlt : ∀ {i r}, held rs i = some r → r.obj.addr < H.next := fun hi => (hsim hi).elim fun _ h => h.lt
  have hgrow : ∀ {as : List Act}, GrowsBy H (H.run X as) → ∀ {i r p}, held rs i = some r →
      H.Reaches r.obj p → (H.run X as).Reaches p o → H.Owns rs o ∨ H.next ≤ o.addr := by
    intro as hg i r p hi hp hr
    rcases hg.reaches hw (closed_reaches hw hp (hlt hi)) hr with h1 | h1
    · exact Or.inl ⟨i, r, hi, hp.trans h1⟩
    · exact Or.inr h1.self.1
  obtain ⟨k, q, hk, hr⟩ := ho
  cases c with
  | make m =>
    obtain ⟨h1, h2, -, h4⟩ := make_ok hh.reach m
    simp only [Cmd.run, held_push] at hk hr
    split at hk
    · refine Classical.byContradiction fun hn => ?_
      exact h4 q o hk (Nat.lt_of_not_le fun e => hn (Or.inr e)) o hr .refl
    · exact Or.inl ⟨k, q, hk, (sameFrom_reaches (extends_sameFrom hw h2 (hlt hk))).mpr hr⟩
  | work i s =>
    simp only [Cmd.run] at hk hr
    cases hi : held rs i with
    | none => rw [hi] at hk hr; exact Or.inl ⟨k, q, hk, hr⟩
    | some r =>
      rw [hi] at hk hr
      obtain ⟨v, hv⟩ := hsim hi
      exact hgrow (rootStep_ok hv s).1.sprouts.by_ hk .refl hr
  | give i j p =>
    simp only [Cmd.run] at hk hr
    split at hk
    · rename_i hij
      rw [if_pos hij] at hr
      exact Or.inl ⟨k, q, hk, hr⟩
    rename_i hij
    rw [if_neg hij] at hr
    split at hk
    · rename_i r b hi hj
      simp only [hi, hj] at hr
      obtain ⟨v, hv⟩ := hsim hi
      obtain ⟨w, hw'⟩ := hsim hj
      obtain ⟨n, hn⟩ := hw'.val
      obtain ⟨u, hu, rfl⟩ := Option.map_eq_some_iff.mp hn
      have hb : TreeSim X b H u := ⟨hw'.reach, hw'.lt, hw'.tree, n, hu⟩
      obtain ⟨z, hz, hoz, hpz, -⟩ := (placeAt_ok hv hb (hh.apart i j r _ hij hi hj) p).1.one
      have hk' : held rs k = some q := by
        by_cases e : k = j
        · subst e
          rw [held_set_self hj] at hk
          cases hk
        · rwa [held_set_ne _ e] at hk
      rcases graft_reaches hw hoz hpz (hlt hk') hb.lt hr with h1 | h1
      · exact Or.inl ⟨k, q, hk', h1⟩
      · exact Or.inl ⟨j, _, hj, h1⟩
    · rename_i hne
      split at hr
      · rename_i r b h1 h2
        exact (hne r b h1 h2).elim
      · exact Or.inl ⟨k, q, hk, hr⟩
  | take i p =>
    simp only [Cmd.run] at hk hr
    cases hi : held rs i with
    | none => rw [hi] at hk hr; exact Or.inl ⟨k, q, hk, hr⟩
    | some r =>
      rw [hi] at hk hr
      obtain ⟨v, hv⟩ := hsim hi
      have hg := (rootStep_ok hv p.drop).1.sprouts.by_
      simp only [held_push] at hk
      split at hk
      · obtain ⟨b, hb, rfl⟩ := Option.map_eq_some_iff.mp hk
        exact hgrow hg hi ((at_get hv p).1 b hb).1 hr
      · exact hgrow hg hk .refl hr

theorem alike_root {r : Root} (h : ∀ o, H.Reaches r.obj o → Same H H' o) (n : Nat) :
    H'.rootVal n r = H.rootVal n r := by
  have hs : SameFrom H H' r.obj := h
  cases r with
  | type a => simp only [Heap.rootVal, sameFrom_val n hs]
  | doc x =>
    cases x with
    | api d => simp only [Heap.rootVal, Heap.docVal, sameFrom_apiVal n hs]
    | lib d => simp only [Heap.rootVal, Heap.docVal, sameFrom_libVal n hs]

theorem rootWrite_map (X : Xyml) (H : Heap) (n : Nat) (r : Root) :
    H.rootWrite X n r = (H.rootVal n r).map (RootVal.toYAML X) := by
  cases h : H.rootVal n r with
  | some v => exact rootWrite_eq h
  | none =>
    cases r with
    | type a =>
      simp only [Heap.rootVal, Option.map_eq_none_iff] at h
      simp only [Heap.rootWrite, write_eq, h, Option.map_none]
    | doc x =>
      cases x with
      | api d =>
        simp only [Heap.rootVal, Heap.docVal, Option.map_eq_none_iff] at h
        simp only [Heap.rootWrite, Heap.docWrite, apiWrite_eq, h, Option.map_none]
      | lib d =>
        simp only [Heap.rootVal, Heap.docVal, Option.map_eq_none_iff] at h
        simp only [Heap.rootWrite, Heap.docWrite, libWrite_eq, h, Option.map_none]

end
end Verif.Doc
