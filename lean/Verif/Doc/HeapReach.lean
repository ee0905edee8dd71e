import Verif.Doc.HeapLemmas
import Verif.Doc.HeapSpec
import Mathlib.Data.Fintype.Pigeonhole

/-! # Lemmas about reaching objects -/

namespace Verif.Doc
open Relation

/-- A data type directly inside a data type. -/
def Heap.Child (H : Heap) (a c : Addr) : Prop := c ∈ H.children a

section
variable {H : Heap}

theorem mem_children {a c : Addr} {h : Hdr} {p : TypePtrs} {b : Body} {f : Addr}
    {ps it : Option Addr} (ho : H.ty a = .ext h p b f ps it) :
    H.Child a c ↔ (∃ e ∈ (H.fm f).ents, c ∈ H.inMap e.2) ∨ (∃ m ∈ ps, c ∈ H.inMap m) ∨ c ∈ it := by
  unfold Heap.Child Heap.children
  rw [ho]
  simp only [List.mem_append, List.mem_flatMap, Option.mem_toList]
  cases ps <;> simp

theorem points_tm {m c : Addr} : H.Points (.tm m) (.ty c) ↔ c ∈ H.inMap m := by
  simp [Heap.Points, Heap.refs, Heap.inMap]

theorem child_inside {a c : Addr} (h : H.Child a c) : H.Inside (.ty a) (.ty c) := by
  cases ho : H.ty a with
  | basic i s x => unfold Heap.Child Heap.children at h; rw [ho] at h; cases h
  | ext hd p b f ps it =>
    rcases (mem_children ho).mp h with ⟨e, he, hc⟩ | ⟨m, hm, hc⟩ | hc
    · refine TransGen.tail (TransGen.tail (b := Obj.fm f) (c := Obj.tm e.2) (TransGen.single ?_) ?_)
        (points_tm.mpr hc)
      · simp [Heap.Points, Heap.refs, ho]
      · exact List.mem_map_of_mem (f := fun e : String × Addr => Obj.tm e.2) he
    · refine TransGen.tail (b := Obj.tm m) (TransGen.single ?_) (points_tm.mpr hc)
      simp [Heap.Points, Heap.refs, ho, Option.mem_def.mp hm]
    · refine TransGen.single ?_
      simp [Heap.Points, Heap.refs, ho, Option.mem_def.mp hc]

theorem childs_inside {a c : Addr} (h : TransGen H.Child a c) : H.Inside (.ty a) (.ty c) := by
  induction h with
  | single h => exact child_inside h
  | tail _ h ih => exact ih.trans (child_inside h)

theorem childs_reaches {a c : Addr} (h : ReflTransGen H.Child a c) :
    H.Reaches (.ty a) (.ty c) := by
  rcases (reflTransGen_iff_eq_or_transGen.mp h) with rfl | h
  · exact .refl
  · exact (childs_inside h).to_reflTransGen

/-- What an object inside the data type `a` can be. -/
private def Within (H : Heap) (a : Addr) : Obj → Prop
  | .ty c => TransGen H.Child a c
  | .tm m => ∃ c, ReflTransGen H.Child a c ∧ ∀ d ∈ H.inMap m, H.Child c d
  | .fm f => ∃ c, ReflTransGen H.Child a c ∧ ∀ e ∈ (H.fm f).ents, ∀ d ∈ H.inMap e.2, H.Child c d
  | .api _ | .lib _ => False
  | _ => True

private theorem within_ty {a c : Addr} {o : Obj} (hc : ReflTransGen H.Child a c)
    (h : H.Points (.ty c) o) : Within H a o := by
  unfold Heap.Points Heap.refs at h
  simp only at h
  cases ho : H.ty c with
  | basic i s x => rw [ho] at h; rw [List.mem_singleton.mp h]; trivial
  | ext hd p b f ps it =>
    rw [ho] at h
    simp only [List.mem_append, List.mem_cons, List.not_mem_nil, or_false, List.mem_map,
      Option.mem_toList] at h
    rcases h with ((((rfl | rfl | rfl | rfl) | ⟨x, -, rfl⟩) | ⟨x, -, rfl⟩) | ⟨m, hm, rfl⟩) |
      ⟨t, ht, rfl⟩
    · trivial
    · trivial
    · trivial
    · exact ⟨c, hc, fun e he d hd => (mem_children ho).mpr (Or.inl ⟨e, he, hd⟩)⟩
    · trivial
    · trivial
    · exact ⟨c, hc, fun d hd => (mem_children ho).mpr (Or.inr (Or.inl ⟨m, hm, hd⟩))⟩
    · exact TransGen.tail' hc ((mem_children ho).mpr (Or.inr (Or.inr ht)))

private theorem within_step {a : Addr} {o o' : Obj} (h : Within H a o) (hp : H.Points o o') :
    Within H a o' := by
  cases o with
  | ty c => exact within_ty h.to_reflTransGen hp
  | tm m =>
    obtain ⟨c, hc, hm⟩ := h
    obtain ⟨e, he, rfl⟩ := List.mem_map.mp hp
    exact TransGen.tail' hc (hm _ (List.mem_map_of_mem he))
  | fm f =>
    obtain ⟨c, hc, hm⟩ := h
    obtain ⟨e, he, rfl⟩ := List.mem_map.mp hp
    exact ⟨c, hc, hm e he⟩
  | em f => obtain ⟨e, he, rfl⟩ := List.mem_map.mp hp; trivial
  | api d => exact h.elim
  | lib d => exact h.elim
  | am _ => cases hp
  | ex _ => cases hp
  | xo _ => cases hp
  | xm _ => cases hp
  | sm _ => cases hp
  | um _ => cases hp

theorem inside_iff {a c : Addr} : H.Inside (.ty a) (.ty c) ↔ TransGen H.Child a c := by
  refine ⟨fun h => ?_, childs_inside⟩
  suffices ∀ o, H.Inside (.ty a) o → Within H a o from this _ h
  intro o h
  induction h with
  | single h => exact within_ty .refl h
  | tail _ h ih => exact within_step ih h

theorem reaches_iff {a c : Addr} : H.Reaches (.ty a) (.ty c) ↔ ReflTransGen H.Child a c := by
  rw [reflTransGen_iff_eq_or_transGen, ← inside_iff, Heap.Reaches, reflTransGen_iff_eq_or_transGen]
  constructor
  · rintro (h | h)
    · exact Or.inl (by cases h; rfl)
    · exact Or.inr h
  · rintro (h | h)
    · exact Or.inl (by rw [h])
    · exact Or.inr h

/-! ### Which objects have a value -/

theorem val_some_iff {n : Nat} {a : Addr} :
    (H.val (n + 1) a).isSome = true ↔ ∀ c, H.Child a c → (H.val n c).isSome = true :=
  view_isSome

theorem exists_val_iff {a : Addr} :
    (∃ n, (H.val n a).isSome = true) ↔ ∀ c, H.Child a c → ∃ n, (H.val n c).isSome = true := by
  constructor
  · rintro ⟨n, hn⟩ c hc
    cases n with
    | zero => cases hn
    | succ n => exact ⟨n, val_some_iff.mp hn c hc⟩
  · intro h
    have : ∀ l : List Addr, (∀ c ∈ l, ∃ n, (H.val n c).isSome = true) →
        ∃ n, ∀ c ∈ l, (H.val n c).isSome = true := by
      intro l
      induction l with
      | nil => exact fun _ => ⟨0, fun c hc => nomatch hc⟩
      | cons x l ih =>
        intro h
        obtain ⟨n, hn⟩ := ih fun c hc => h c (List.mem_cons_of_mem _ hc)
        obtain ⟨m, hm⟩ := h x List.mem_cons_self
        refine ⟨max n m, fun c hc => ?_⟩
        rcases List.mem_cons.mp hc with rfl | hc
        · obtain ⟨t, ht⟩ := Option.isSome_iff_exists.mp hm
          rw [val_mono (Nat.le_max_right n m) ht]; rfl
        · obtain ⟨t, ht⟩ := Option.isSome_iff_exists.mp (hn c hc)
          rw [val_mono (Nat.le_max_left n m) ht]; rfl
    obtain ⟨n, hn⟩ := this (H.children a) h
    exact ⟨n + 1, val_some_iff.mpr hn⟩

theorem cycle_no_val {a : Addr} (h : TransGen H.Child a a) (n : Nat) : H.val n a = none := by
  have : ∀ n c, TransGen H.Child c a → (H.val n c).isSome = true → ∃ m < n,
      (H.val m a).isSome = true := by
    intro n
    induction n with
    | zero => intro c _ h; cases h
    | succ n ih =>
      intro c hc hv
      rcases TransGen.head'_iff.mp hc with ⟨d, hd, hda⟩
      have hv' := val_some_iff.mp hv d hd
      rcases reflTransGen_iff_eq_or_transGen.mp hda with rfl | hda
      · exact ⟨n, by omega, hv'⟩
      · obtain ⟨m, hm, h⟩ := ih d hda hv'
        exact ⟨m, by omega, h⟩
  have key : ∀ n, (H.val n a).isSome = true → False := by
    intro n
    induction n using Nat.strongRecOn with
    | ind n ih =>
      intro hv
      obtain ⟨m, hm, hv'⟩ := this n a h hv
      exact ih m hm hv'
  cases hv : H.val n a with
  | none => rfl
  | some t => exact (key n (by rw [hv]; rfl)).elim

theorem reaches_no_val {a c : Addr} (h : ReflTransGen H.Child a c)
    (hc : ∀ n, H.val n c = none) (n : Nat) : H.val n a = none := by
  have : ∀ d, ReflTransGen H.Child d c → (∃ n, (H.val n d).isSome = true) →
      ∃ n, (H.val n c).isSome = true := by
    intro d hd
    induction hd using ReflTransGen.head_induction_on with
    | refl => exact id
    | head h1 _ ih => exact fun hv => ih (exists_val_iff.mp hv _ h1)
  cases hv : H.val n a with
  | none => rfl
  | some t =>
    obtain ⟨m, hm⟩ := this a h ⟨n, by rw [hv]; rfl⟩
    rw [hc m] at hm; cases hm

theorem closed_reaches (hw : H.Closed) {o o' : Obj} (h : H.Reaches o o') (ho : o.addr < H.next) :
    o'.addr < H.next := by
  induction h with
  | refl => exact ho
  | tail _ hp _ => exact hw _ _ hp

/-- Objects that point only to each other lead nowhere else. -/
theorem reaches_mem {S : List Obj} (hS : ∀ x ∈ S, ∀ y ∈ H.refs x, y ∈ S) {o o' : Obj}
    (h : H.Reaches o o') (ho : o ∈ S) : o' ∈ S := by
  induction h with
  | refl => exact ho
  | tail _ hp ih => exact hS _ ih _ hp

theorem no_val_cycle (hw : H.Closed) {a : Addr} (ha : a < H.next) (h : ∀ n, H.val n a = none) :
    ∃ c, ReflTransGen H.Child a c ∧ TransGen H.Child c c := by
  classical
  -- every object without a value has a child without a value
  have next : ∀ x : {x // (∀ n, H.val n x = none)}, ∃ y : {x // (∀ n, H.val n x = none)},
      H.Child x.1 y.1 := by
    rintro ⟨x, hx⟩
    by_contra hn
    simp only [not_exists] at hn
    have : ∃ n, (H.val n x).isSome = true := by
      rw [exists_val_iff]
      intro c hc
      by_contra hs
      simp only [not_exists, Bool.not_eq_true, Option.isSome_eq_false_iff,
        Option.isNone_iff_eq_none] at hs
      exact hn ⟨c, hs⟩ hc
    obtain ⟨n, hn⟩ := this
    rw [hx n] at hn; cases hn
  choose g hg using next
  let s : Nat → {x // (∀ n, H.val n x = none)} := fun i => g^[i] ⟨a, h⟩
  have hs : ∀ i, H.Child (s i).1 (s (i + 1)).1 := by
    intro i
    show H.Child _ (g^[i + 1] ⟨a, h⟩).1
    rw [Function.iterate_succ_apply']
    exact hg _
  have hpath : ∀ i j, ReflTransGen H.Child (s i).1 (s (i + j)).1 := by
    intro i j
    induction j with
    | zero => exact .refl
    | succ j ih => exact ih.tail (hs (i + j))
  have hb : ∀ i, (s i).1 < H.next := by
    intro i
    have := hpath 0 i
    rw [Nat.zero_add] at this
    exact closed_reaches hw (childs_reaches this) ha
  obtain ⟨i, j, hij, he⟩ := Finite.exists_ne_map_eq_of_infinite fun i => (⟨_, hb i⟩ : Fin H.next)
  have he : (s i).1 = (s j).1 := by simpa using he
  have main : ∀ i j, i < j → (s i).1 = (s j).1 →
      ∃ c, ReflTransGen H.Child a c ∧ TransGen H.Child c c := by
    intro i j hlt he
    refine ⟨(s i).1, by have := hpath 0 i; rwa [Nat.zero_add] at this, ?_⟩
    have h1 := hpath (i + 1) (j - (i + 1))
    rw [show i + 1 + (j - (i + 1)) = j by omega, ← he] at h1
    exact TransGen.head' (hs i) h1
  rcases Nat.lt_or_gt_of_ne hij with h' | h'
  · exact main i j h' he
  · exact main j i h' he.symm

end

/-! ### Heaps that agree -/

theorem same_symm {H H' : Heap} {o : Obj} (h : Same H H' o) : Same H' H o := by
  cases o <;> exact Eq.symm h

theorem same_refl (H : Heap) (o : Obj) : Same H H o := by cases o <;> rfl

theorem same_trans {H H' H'' : Heap} {o : Obj} (h : Same H H' o) (h' : Same H' H'' o) :
    Same H H'' o := by
  cases o <;> exact Eq.trans h h'

theorem same_refs {H H' : Heap} {o : Obj} (h : Same H H' o) : H.refs o = H'.refs o := by
  cases o <;> simp only [Heap.refs] <;> first | rfl | rw [show _ = _ from h]

/-- Agreement on everything that can be reached. -/
def SameFrom (H H' : Heap) (o : Obj) : Prop := ∀ o', H.Reaches o o' → Same H H' o'

theorem SameFrom.step {H H' : Heap} {o o' : Obj} (h : SameFrom H H' o) (hp : H.Points o o') :
    SameFrom H H' o' := fun _ hr => h _ (ReflTransGen.head hp hr)

theorem sameFrom_hdr {H H' : Heap} {a : Addr} {h : Hdr} {p : TypePtrs} {b : Body} {f : Addr}
    {ps it : Option Addr} (hs : SameFrom H H' (.ty a)) (ho : H.ty a = .ext h p b f ps it) :
    H.hdr h p = H'.hdr h p := by
  have hp : ∀ o, o ∈ H.refs (.ty a) → Same H H' o := fun o ho => hs o (.single ho)
  have hr : H.refs (.ty a) = [.xm p.extra, .am p.annotations, .em p.examples, .fm f] ++
    p.xml.toList.map .xo ++ p.example.toList.map .ex ++ ps.toList.map .tm ++
    it.toList.map .ty := by simp only [Heap.refs, ho]
  rw [hr] at hp
  have e1 : H.xm p.extra = H'.xm p.extra := hp (.xm p.extra) (by simp)
  have e2 : H.am p.annotations = H'.am p.annotations := hp (.am p.annotations) (by simp)
  have e3 : H.em p.examples = H'.em p.examples := hp (.em p.examples) (by simp)
  have e4 : p.xml.map H.xo = p.xml.map H'.xo := by
    cases hx : p.xml with
    | none => rfl
    | some x => exact congrArg some (hp (.xo x) (by simp [hx]))
  have e5 : p.example.map H.ex = p.example.map H'.ex := by
    cases hx : p.example with
    | none => rfl
    | some x => exact congrArg some (hp (.ex x) (by simp [hx]))
  have e6 : (H.em p.examples).ents.map (fun e => (e.1, H.ex e.2)) =
      (H.em p.examples).ents.map (fun e => (e.1, H'.ex e.2)) := by
    apply List.map_congr_left
    intro e he
    have : Same H H' (.ex e.2) := by
      have hpe : H.Points (.ty a) (.em p.examples) := by
        show _ ∈ H.refs _
        rw [hr]; simp
      exact (hs.step hpe) (.ex e.2)
        (.single (List.mem_map_of_mem (f := fun e : String × Addr => Obj.ex e.2) he))
    rw [show H.ex e.2 = H'.ex e.2 from this]
  simp only [Heap.hdr, e1, e2, e4, e5]
  rw [e6, e3]

theorem sameFrom_tm {H H' : Heap} {m : Addr} (hs : SameFrom H H' (.tm m))
    {r r' : Addr → Option DT} (hr : ∀ c, SameFrom H H' (.ty c) → r c = r' c) :
    followMap r (H.tm m) = followMap r' (H'.tm m) := by
  rw [← show H.tm m = H'.tm m from hs _ .refl]
  apply followMap_congr
  intro e he
  exact hr _ (hs.step (List.mem_map_of_mem (f := fun e : String × Addr => Obj.ty e.2) he))

theorem sameFrom_fm {H H' : Heap} {f : Addr} (hs : SameFrom H H' (.fm f))
    {r r' : Addr → Option DT} (hr : ∀ c, SameFrom H H' (.ty c) → r c = r' c) :
    followMap (fun m => followMap r (H.tm m)) (H.fm f) =
      followMap (fun m => followMap r' (H'.tm m)) (H'.fm f) := by
  rw [← show H.fm f = H'.fm f from hs _ .refl]
  apply followMap_congr
  intro e he
  exact sameFrom_tm
    (hs.step (List.mem_map_of_mem (f := fun e : String × Addr => Obj.tm e.2) he)) hr

theorem sameFrom_view {H H' : Heap} {a : Addr} (hs : SameFrom H H' (.ty a))
    {r r' : Addr → Option DT} (hr : ∀ c, SameFrom H H' (.ty c) → r c = r' c) :
    H.view r a = H'.view r' a := by
  unfold Heap.view
  rw [← show H.ty a = H'.ty a from hs _ .refl]
  cases ho : H.ty a with
  | basic i s x =>
    have : H.xm x = H'.xm x := hs (.xm x) (.single (by simp [Heap.Points, Heap.refs, ho]))
    simp only [this]
  | ext hd p b f ps it =>
    have hp : ∀ o, o ∈ H.refs (.ty a) → SameFrom H H' o := fun o ho => hs.step ho
    have hrf : H.refs (.ty a) = [.xm p.extra, .am p.annotations, .em p.examples, .fm f] ++
      p.xml.toList.map .xo ++ p.example.toList.map .ex ++ ps.toList.map .tm ++
      it.toList.map .ty := by simp only [Heap.refs, ho]
    rw [hrf] at hp
    have e1 := sameFrom_fm (hp (.fm f) (by simp)) hr
    have e2 : H.propsView r ps = H'.propsView r' ps := by
      cases ps with
      | none => rfl
      | some m => exact sameFrom_tm (hp (.tm m) (by simp)) hr
    have e3 : followOpt r it = followOpt r' it := by
      cases it with
      | none => rfl
      | some c =>
        show (r c).map some = (r' c).map some
        rw [hr c (hp (.ty c) (by simp))]
    simp only [e1, e2, e3, sameFrom_hdr hs ho]

theorem sameFrom_val {H H' : Heap} (n : Nat) {a : Addr} (hs : SameFrom H H' (.ty a)) :
    H.val n a = H'.val n a := by
  induction n generalizing a with
  | zero => rfl
  | succ n ih => exact sameFrom_view hs fun c hc => ih hc

theorem sameFrom_reaches {H H' : Heap} {o o' : Obj} (hs : SameFrom H H' o) :
    H.Reaches o o' ↔ H'.Reaches o o' := by
  constructor
  · intro h
    induction h using ReflTransGen.head_induction_on with
    | refl => exact .refl
    | head hp _ ih =>
      refine ReflTransGen.head ?_ (ih (hs.step hp))
      show _ ∈ _
      rw [← same_refs (hs _ .refl)]; exact hp
  · intro h
    induction h using ReflTransGen.head_induction_on with
    | refl => exact .refl
    | @head x y hp _ ih =>
      have hp' : H.Points x y := by
        show y ∈ H.refs x
        rw [same_refs (hs _ .refl)]; exact hp
      exact ReflTransGen.head hp' (ih (hs.step hp'))

theorem sameFrom_symm {H H' : Heap} {o : Obj} (hs : SameFrom H H' o) : SameFrom H' H o :=
  fun o' h => same_symm (hs o' ((sameFrom_reaches hs).mpr h))

end Verif.Doc
