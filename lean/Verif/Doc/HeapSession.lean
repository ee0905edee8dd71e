import Verif.Doc.HeapRoots
import Verif.Doc.HeapSessionSpec

/-! # Lemmas: whole programs -/

namespace Verif.Doc
open Relation

/-! ### One more pointer, one pointer less -/

section graph
variable {H H' : Heap} {o p : Obj} {b : Addr}

theorem graft_reaches (hw : H.Closed) (hq : Only [p] H H')
    (hp : ∀ y, H'.Points p y → H.Points p y ∨ y = .ty b) (ho : o.addr < H.next) (hb : b < H.next)
    {x : Obj} (h : H'.Reaches o x) : H.Reaches o x ∨ H.Reaches (.ty b) x := by
  induction h with
  | refl => exact Or.inl .refl
  | @tail x y _ hxy ih =>
    by_cases hx : x = p
    · subst hx
      rcases hp y hxy with h | rfl
      · exact ih.imp (.tail · h) (.tail · h)
      · exact Or.inr .refl
    · have hlt : x.addr < H.next :=
        ih.elim (fun q => closed_reaches hw q ho) fun q => closed_reaches hw q hb
      have hs := hq.same x hlt (by simpa using hx)
      have : H.Points x y := by rw [Heap.Points, same_refs hs]; exact hxy
      exact ih.imp (.tail · this) (.tail · this)

/-- A tree that gets another as a part. -/
theorem graft_tree (hw : H.Closed) (hq : Only [p] H H')
    (hp : ∀ y, H'.Points p y → H.Points p y ∨ y = .ty b) (hn : (H'.refs p).Nodup)
    (ho : o.addr < H.next) (hb : b < H.next) (ht : H.Tree o) (htb : H.Tree (.ty b))
    (ha : H.Apart o (.ty b)) : H'.Tree o := by
  have hrc : ∀ {x}, H'.Reaches o x → H.Reaches o x ∨ H.Reaches (.ty b) x :=
    fun h => graft_reaches hw hq hp ho hb h
  have hlt : ∀ {x}, H'.Reaches o x → x.addr < H.next := fun h =>
    (hrc h).elim (fun q => closed_reaches hw q ho) fun q => closed_reaches hw q hb
  have hold : ∀ {x y}, H'.Reaches o x → H'.Points x y → H.Points x y ∨ (x = p ∧ y = .ty b) := by
    intro x y hx hxy
    by_cases e : x = p
    · subst e; exact (hp y hxy).imp id fun q => ⟨rfl, q⟩
    · refine Or.inl ?_
      rw [Heap.Points, same_refs (hq.same x (hlt hx) (by simpa using e))]
      exact hxy
  refine ⟨fun x hx hxo => ?_, fun x x' y hx hx' hy hy' => ?_, fun x hx => ?_⟩
  · rcases hold hx hxo with h | ⟨-, rfl⟩
    · rcases hrc hx with q | q
      · exact ht.root x q h
      · exact ha o .refl (.tail q h)
    · exact ha _ .refl .refl
  · have hb' : ∀ {z}, H'.Reaches o z → ¬ H.Points z (.ty b) := fun hz hzb =>
      (hrc hz).elim (fun q => ha _ (.tail q hzb) .refl) fun q => htb.root _ q hzb
    rcases hold hx hy with h | ⟨rfl, rfl⟩
    · rcases hold hx' hy' with h' | ⟨rfl, rfl⟩
      · rcases hrc hx with q | q <;> rcases hrc hx' with q' | q'
        · exact ht.uniq x x' y q q' h h'
        · exact absurd (ReflTransGen.tail q' h') (ha y (.tail q h))
        · exact absurd (ReflTransGen.tail q h) (ha y (.tail q' h'))
        · exact htb.uniq x x' y q q' h h'
      · exact absurd h (hb' hx)
    · rcases hold hx' hy' with h' | ⟨rfl, -⟩
      · exact absurd h' (hb' hx')
      · rfl
  · by_cases e : x = p
    · subst e; exact hn
    · rw [← same_refs (hq.same x (hlt hx) (by simpa using e))]
      exact (hrc hx).elim (fun q => ht.nodup x q) fun q => htb.nodup x q

/-- A tree that loses a part has nothing of it left. -/
theorem prune_reaches (hw : H.Closed) (hq : Only [p] H H')
    (hp : ∀ y, H'.Points p y → H.Points p y) (hcut : ¬ H'.Points p (.ty b))
    (hpb : H.Points p (.ty b)) (hpo : H.Reaches o p) (ht : H.Tree o) (ho : o.addr < H.next)
    {z : Obj} (hz : H'.Reaches o z) : H.Reaches o z ∧ ¬ H.Reaches (.ty b) z := by
  induction hz with
  | refl =>
    exact ⟨.refl, fun q => ht.acyclic .refl (TransGen.trans_right hpo (TransGen.head' hpb q))⟩
  | @tail x y _ hxy ih =>
    have hold : H.Points x y := by
      by_cases e : x = p
      · subst e; exact hp y hxy
      · rw [Heap.Points, same_refs (hq.same x (closed_reaches hw ih.1 ho) (by simpa using e))]
        exact hxy
    refine ⟨.tail ih.1 hold, fun q => ?_⟩
    rcases ReflTransGen.cases_tail q with e | ⟨w, hw', hp'⟩
    · subst e
      have := ht.uniq x p _ ih.1 hpo hold hpb
      subst this
      exact hcut hxy
    · have := ht.uniq x w y ih.1 (.trans hpo (.head hpb hw')) hold hp'
      subst this
      exact ih.2 hw'

/-- The part is as it was. -/
theorem prune_part (hw : H.Closed) (hq : Only [p] H H') (hpb : H.Points p (.ty b))
    (hpo : H.Reaches o p) (ht : H.Tree o) : SameFrom H H' (.ty b) :=
  only_sameFrom hw hq (hw _ _ hpb) fun x hx hr => by
    rw [List.mem_singleton.mp hx] at hr
    exact ht.acyclic hpo (TransGen.head' hpb hr)

end graph

/-! ### What the getters lead to, in values -/

section find
variable {X : Xyml} {H : Heap}

theorem followMap_get {α β : Type} {r : α → Option β} {m : OM String α} {m' : OM String β}
    (h : followMap r m = some m') (k : String) :
    (∀ c, m.get k = some c → r c = m'.get k) ∧ (m.get k = none → m'.get k = none) := by
  rw [followMap_some] at h
  obtain ⟨h, -⟩ := h
  obtain ⟨es, o⟩ := m
  obtain ⟨es', o'⟩ := m'
  unfold OM.get
  dsimp only at h ⊢
  induction h with
  | nil => exact ⟨fun c hc => (by cases hc), fun _ => rfl⟩
  | @cons e e' es es' h1 h2 ih =>
    simp only [List.find?_cons]
    rw [← h1.2]
    split
    · simp [h1.1]
    · exact ih

theorem hop_get {a : Addr} {t : DT} (h : TreeSim X a H t) (hp : Hop) :
    (∀ c, H.hop a hp = some c → ∃ u, t.hop hp = some u ∧ TreeSim X c H u) ∧
    (H.hop a hp = none → t.hop hp = none) := by
  obtain ⟨n, hn⟩ := h.val
  refine ⟨fun c hc => ?_, fun hc => ?_⟩
  · obtain ⟨n', u, hu⟩ := hop_val h hc
    refine ⟨u, ?_, h.below (hop_reaches hc) hu⟩
    have key : ∀ {x : Option DT}, H.val n c = x → x ≠ none → x = some u := by
      intro x hx hne
      cases x with
      | none => exact absurd rfl hne
      | some w => rw [val_unique hx hu]
    cases hp with
    | property k =>
      obtain ⟨m, hg, hc⟩ := hop_property hc
      obtain ⟨_, _, _, _, _, rfl, hps⟩ := get_properties hn hg
      obtain ⟨w, hw⟩ := get_value hps hc
      have := (followMap_get hps k).1 c hc
      simp only [DT.hop]
      exact key this (by rw [← this, hw]; simp)
    | items =>
      obtain ⟨_, _, _, _, w, rfl, hw⟩ := get_items hn (hop_items hc)
      simp only [DT.hop]
      rw [val_unique hw hu]
    | facet k k' =>
      obtain ⟨m, u', hg, hu', hc⟩ := hop_facet hc
      obtain ⟨_, _, _, _, _, rfl, hfs⟩ := get_facets hn hg
      obtain ⟨y, hy⟩ := get_value hfs hu'
      obtain ⟨w, hw⟩ := get_value hy hc
      have h1 := (followMap_get hfs k).1 u' hu'
      have h2 := (followMap_get hy k').1 c hc
      simp only [DT.hop, ← h1, hy, Option.bind_some]
      exact key h2 (by rw [← h2, hw]; simp)
  · cases hp with
    | property k =>
      cases hg : H.getMap a .properties with
      | none =>
        have := part_none hn (h.reach.sound a) (getMap_none hg)
        cases t with
        | basic => rfl
        | ext c b fs ps it => cases b <;> first | rfl | cases this
      | some m =>
        have hg : H.get a .properties = some (.tm m) := getMap_some hg
        obtain ⟨_, _, _, _, _, rfl, hps⟩ := get_properties hn hg
        simp only [Heap.hop, hg] at hc
        exact (followMap_get hps k).2 hc
    | items =>
      cases hg : H.getMap a .items with
      | none =>
        have := part_none hn (h.reach.sound a) (getMap_none hg)
        cases t with
        | basic => rfl
        | ext c b fs ps it =>
          cases b <;> first | rfl | skip
          simp only [DT.part, Option.map_eq_none_iff] at this
          exact this
      | some m =>
        have hg : H.get a .items = some (.ty m) := getMap_some hg
        simp only [Heap.hop, hg] at hc
        cases hc
    | facet k k' =>
      cases hg : H.getMap a .facets with
      | none =>
        have := part_none hn (h.reach.sound a) (getMap_none hg)
        cases t with
        | basic => rfl
        | ext c b fs ps it => cases this
      | some m =>
        have hg : H.get a .facets = some (.fm m) := getMap_some hg
        obtain ⟨_, _, _, _, _, rfl, hfs⟩ := get_facets hn hg
        simp only [Heap.hop, hg] at hc
        cases hu : (H.fm m).get k with
        | none => simp only [DT.hop, (followMap_get hfs k).2 hu, Option.bind_none]
        | some u =>
          simp only [hu] at hc
          obtain ⟨y, hy⟩ := get_value hfs hu
          have h1 := (followMap_get hfs k).1 u hu
          simp only [DT.hop, ← h1, hy, Option.bind_some]
          exact (followMap_get hy k').2 hc

theorem walk_get (hs : List Hop) {a : Addr} {t : DT} (h : TreeSim X a H t) :
    (∀ c, H.walk hs a = some c → H.Reaches (.ty a) (.ty c) ∧
      ∃ u, t.walk hs = some u ∧ TreeSim X c H u) ∧
    (H.walk hs a = none → t.walk hs = none) := by
  induction hs generalizing a t with
  | nil => exact ⟨fun c hc => (by cases hc; exact ⟨.refl, t, rfl, h⟩), fun hc => (by cases hc)⟩
  | cons p hs ih =>
    simp only [Heap.walk, DT.walk]
    cases hc : H.hop a p with
    | none =>
      refine ⟨fun c hc => (by cases hc), fun _ => ?_⟩
      rw [(hop_get h p).2 hc]
      rfl
    | some b =>
      obtain ⟨u, hu, hb⟩ := (hop_get h p).1 b hc
      rw [hu]
      exact ⟨fun c hc' => ((ih hb).1 c hc').imp (.trans (hop_reaches hc)) id, (ih hb).2⟩

theorem types_get {n : Nat} {x : Holder} {d : DocVal} (hd : H.docVal n x = some d) (k : String)
    (hs : List Hop) : ∃ m, H.sec x .types = some (.tm m) ∧ H.typeMap n m = some d.types ∧
      RootVal.find (.doc d) (.declared k hs) = (d.types.get k).bind (DT.walk hs) := by
  obtain ⟨m, hm, hty⟩ := docVal_types hd
  refine ⟨m, hm, hty, ?_⟩
  cases d <;> rfl

theorem find_get {r : Root} {v : RootVal} (h : RootSim X r H v) (w : Way) :
    (∀ c, H.find r w = some c → H.Reaches r.obj (.ty c) ∧
      ∃ u, v.find w = some u ∧ TreeSim X c H u) ∧
    (H.find r w = none → v.find w = none) := by
  obtain ⟨n, hn⟩ := h.val
  cases r with
  | type a =>
    obtain ⟨t, ht, rfl⟩ := Option.map_eq_some_iff.mp hn
    cases w with
    | inside hs => exact walk_get hs ⟨h.reach, h.lt, h.tree, n, ht⟩
    | declared k hs => exact ⟨fun c hc => (by cases hc), fun _ => rfl⟩
  | doc x =>
    obtain ⟨d, hd, rfl⟩ := Option.map_eq_some_iff.mp hn
    cases w with
    | inside hs => exact ⟨fun c hc => (by cases hc), fun _ => (by cases d <;> rfl)⟩
    | declared k hs =>
      obtain ⟨m, hm, hty, hf⟩ := types_get hd k hs
      rw [hf]
      simp only [Heap.find, hm]
      have hpm := sec_points hm
      cases hc : (H.tm m).get k with
      | none =>
        rw [(followMap_get hty k).2 hc]
        exact ⟨fun c hc => (by cases hc), fun _ => rfl⟩
      | some b =>
        have hr : H.Reaches x.obj (.ty b) := .head hpm (.single (tm_entry hc))
        obtain ⟨u, hu⟩ := get_value hty hc
        rw [← (followMap_get hty k).1 b hc, hu]
        have := walk_get hs (X := X) (t := u)
          ⟨h.reach, h.reach.closed _ _ (tm_entry hc), h.tree.sub hr, n, hu⟩
        exact ⟨fun c hc' => (this.1 c hc').imp (.trans hr) id, this.2⟩

theorem at_get {r : Root} {v : RootVal} (h : RootSim X r H v) (p : Spot) :
    (∀ c, H.at r p = some c → H.Reaches r.obj (.ty c) ∧
      ∃ u, v.at p = some u ∧ TreeSim X c H u) ∧
    (H.at r p = none → v.at p = none) := by
  cases p with
  | types k => exact find_get h (.declared k [])
  | part w p =>
    simp only [Heap.at, RootVal.at]
    cases hc : H.find r w with
    | none =>
      rw [(find_get h w).2 hc]
      exact ⟨fun c hc => (by cases hc), fun _ => rfl⟩
    | some b =>
      obtain ⟨hr, u, hu, hb⟩ := (find_get h w).1 b hc
      rw [hu]
      exact ⟨fun c hc => ⟨.trans hr (hop_reaches hc), (hop_get hb p).1 c hc⟩, (hop_get hb p).2⟩

/-! ### A change at the end of a way -/

theorem walk_change {H' : Heap} {g : DT → DT} {c : Addr} {T : List Obj} (hq : Only T H H')
    (hT : ∀ x ∈ T, H.Reaches (.ty c) x)
    (hs : ∀ u, TreeSim X c H u → ∃ n, H'.val n c = some (g u)) (ps : List Hop) {a : Addr} {t : DT}
    (h : TreeSim X a H t) (hc : H.walk ps a = some c) :
    ∃ n, H'.val n a = some (t.within g ps) := by
  induction ps generalizing a t with
  | nil => cases hc; exact hs t h
  | cons p ps ih =>
    simp only [Heap.walk] at hc
    cases hb : H.hop a p with
    | none => rw [hb] at hc; cases hc
    | some b =>
      simp only [hb] at hc
      obtain ⟨u, -, hu⟩ := (hop_get h p).1 b hb
      exact hop_change h hb hq (fun x hx => .trans ((walk_get ps hu).1 c hc).1 (hT x hx))
        fun u hu => ih hu hc

theorem walk_unchanged (g : DT → DT) (ps : List Hop) {a : Addr} {t : DT} (h : TreeSim X a H t)
    (hc : H.walk ps a = none) : t.within g ps = t := by
  induction ps generalizing a t with
  | nil => cases hc
  | cons p ps ih =>
    simp only [Heap.walk] at hc
    cases hb : H.hop a p with
    | none => exact hop_none h hb _
    | some b =>
      simp only [hb] at hc
      have : ∃ n, H.val n a = some (t.through (DT.within g ps) p) :=
        hop_change h hb (Only.refl [] H) (fun x hx => by cases hx) fun u hu => by
          rw [ih hu hc]; exact hu.val
      obtain ⟨n, hn⟩ := this
      obtain ⟨n', hn'⟩ := h.val
      exact val_unique hn hn'

theorem find_change {H' : Heap} {g : DT → DT} {c : Addr} {T : List Obj} (hq : Only T H H')
    (hT : ∀ x ∈ T, H.Reaches (.ty c) x)
    (hs : ∀ u, TreeSim X c H u → ∃ n, H'.val n c = some (g u)) {r : Root} {v : RootVal} {w : Way}
    (h : RootSim X r H v) (hc : H.find r w = some c) :
    ∃ n, H'.rootVal n r = some (v.change g w) := by
  obtain ⟨n, hn⟩ := h.val
  cases r with
  | type a =>
    obtain ⟨t, ht, rfl⟩ := Option.map_eq_some_iff.mp hn
    cases w with
    | inside ps =>
      obtain ⟨n', hn'⟩ := walk_change hq hT hs ps ⟨h.reach, h.lt, h.tree, n, ht⟩ hc
      exact ⟨n', congrArg (Option.map RootVal.type) hn'⟩
    | declared k ps => cases hc
  | doc x =>
    obtain ⟨d, hd, rfl⟩ := Option.map_eq_some_iff.mp hn
    cases w with
    | inside ps => cases hc
    | declared k ps =>
      obtain ⟨m, hm, hty, -⟩ := types_get hd k ps
      simp only [Heap.find, hm] at hc
      have hw := h.reach.closed
      have hpm := sec_points hm
      cases hb : (H.tm m).get k with
      | none => rw [hb] at hc; cases hc
      | some b =>
        simp only [hb] at hc
        have hpb := tm_entry hb
        have hr : H.Reaches x.obj (.ty b) := .head hpm (.single hpb)
        obtain ⟨u, hu⟩ := get_value hty hb
        have hsb : TreeSim X b H u := ⟨h.reach, hw _ _ hpb, h.tree.sub hr, n, hu⟩
        obtain ⟨n2, hu'⟩ := walk_change hq hT hs ps hsb hc
        have hTb : ∀ x ∈ T, H.Reaches (.ty b) x := fun x hx =>
          .trans ((walk_get ps hsb).1 c hc).1 (hT x hx)
        have hd' := docVal_mono (Nat.le_max_left n n2) hd
        have hty' := mapMono (Nat.le_max_left n n2) hty
        refine ⟨max n n2, congrArg (Option.map RootVal.doc) (part_types hw h.tree hd' h.lt hm hq
          (fun y hy => .head hpb (hTb y hy)) ?_)⟩
        refine typeMap_at hw (h.tree.sub (.single hpm)) (hw _ _ hpm) hb hq hTb (fun w hw' => ?_) hty'
        rw [← val_unique hu hw']
        exact val_mono (Nat.le_max_right n n2) hu'

theorem find_unchanged (g : DT → DT) {r : Root} {v : RootVal} {w : Way} (h : RootSim X r H v)
    (hc : H.find r w = none) : v.change g w = v := by
  obtain ⟨n, hn⟩ := h.val
  cases r with
  | type a =>
    obtain ⟨t, ht, rfl⟩ := Option.map_eq_some_iff.mp hn
    cases w with
    | inside ps =>
      simp only [RootVal.change]
      rw [walk_unchanged g ps (X := X) ⟨h.reach, h.lt, h.tree, n, ht⟩ hc]
    | declared k ps => rfl
  | doc x =>
    obtain ⟨d, hd, rfl⟩ := Option.map_eq_some_iff.mp hn
    cases w with
    | inside ps => rfl
    | declared k ps =>
      obtain ⟨m, hm, hty, -⟩ := types_get hd k ps
      simp only [Heap.find, hm] at hc
      simp only [RootVal.change]
      rw [onTypes_id]
      cases hb : (H.tm m).get k with
      | none => exact change_none hty hb _
      | some b =>
        simp only [hb] at hc
        have hpm := sec_points hm
        have hpb := tm_entry hb
        have hr : H.Reaches x.obj (.ty b) := .head hpm (.single hpb)
        obtain ⟨u, hu⟩ := get_value hty hb
        have hsb : TreeSim X b H u := ⟨h.reach, h.reach.closed _ _ hpb, h.tree.sub hr, n, hu⟩
        rw [change_congr hty hb hu, walk_unchanged g ps hsb hc]
        have := change_get (r' := H.val n) hty hb (tm_nodup (h.tree.sub (.single hpm)))
          (g := fun _ => u) hu hu fun _ _ _ => rfl
        exact Option.some.inj (this.symm.trans hty)

end find

end Verif.Doc
