import Verif.Doc.HeapTypeSim

/-! # Lemmas: objects that form trees -/

namespace Verif.Doc
open Relation

section tree
variable {H H' : Heap} {o : Obj}

theorem Heap.Tree.acyclic (h : H.Tree o) {x : Obj} (hx : H.Reaches o x) : ¬ H.Inside x x := by
  induction hx with
  | refl =>
    intro hc
    obtain ⟨z, hz, hp⟩ := TransGen.tail'_iff.mp hc
    exact h.root z hz hp
  | @tail w x hw hp ih =>
    intro hc
    obtain ⟨z, hz, hzp⟩ := TransGen.tail'_iff.mp hc
    have hox : H.Reaches o x := hw.tail hp
    have := h.uniq z w x (hox.trans hz) hw hzp hp
    subst this
    exact ih (TransGen.head' hp hz)

theorem Heap.Tree.sub (h : H.Tree o) {x : Obj} (hx : H.Reaches o x) : H.Tree x :=
  ⟨fun _ hy hp => h.acyclic hx (TransGen.tail' hy hp),
    fun y y' z hy hy' hp hp' => h.uniq y y' z (hx.trans hy) (hx.trans hy') hp hp',
    fun y hy => h.nodup y (hx.trans hy)⟩

/-- Different things in an object have nothing in common. -/
theorem Heap.Tree.apart (h : H.Tree o) {y y' : Obj} (hy : H.Points o y) (hy' : H.Points o y')
    (hne : y ≠ y') : H.Apart y y' := by
  have key : ∀ {y y' : Obj}, H.Points o y → H.Points o y' → y ≠ y' → ¬ H.Reaches y y' := by
    intro y y' hy hy' hne hr
    rcases ReflTransGen.cases_tail hr with e | ⟨w, hw, hp⟩
    · exact hne e.symm
    · have := h.uniq w o y' (.head hy hw) .refl hp hy'
      subst this
      exact h.acyclic .refl (TransGen.head' hy hw)
  intro z hz
  induction hz with
  | refl => exact key hy' hy (Ne.symm hne)
  | @tail w z hw hp ih =>
    intro hz'
    rcases ReflTransGen.cases_tail hz' with e | ⟨w', hw', hp'⟩
    · subst e
      exact key hy hy' hne (hw.tail hp)
    · have := h.uniq w w' z (.head hy hw) (.head hy' hw') hp hp'
      subst this
      exact ih hw'

theorem tree_of (hn : (H.refs o).Nodup) (hc : ∀ y, H.Points o y → H.Tree y)
    (hap : ∀ y y', H.Points o y → H.Points o y' → y ≠ y' → H.Apart y y')
    (hr : ∀ y, H.Points o y → ¬ H.Reaches y o) : H.Tree o := by
  have split : ∀ {x}, H.Reaches o x → x = o ∨ ∃ y, H.Points o y ∧ H.Reaches y x := by
    intro x hx
    rcases ReflTransGen.cases_head hx with e | ⟨y, hy, hyx⟩
    · exact Or.inl e.symm
    · exact Or.inr ⟨y, hy, hyx⟩
  have one : ∀ {x z y}, H.Points o y → H.Reaches y x → H.Points x z → H.Points o z → False := by
    intro x z y hy hyx hxz hz
    by_cases e : y = z
    · subst e
      exact (hc y hy).root x hyx hxz
    · exact hap y z hy hz e z (hyx.tail hxz) .refl
  refine ⟨fun x hx hp => ?_, fun x x' z hx hx' hp hp' => ?_, fun x hx => ?_⟩
  · rcases split hx with rfl | ⟨y, hy, hyx⟩
    · exact hr _ hp .refl
    · exact hr y hy (hyx.tail hp)
  · rcases split hx with rfl | ⟨y, hy, hyx⟩
    · rcases split hx' with rfl | ⟨y', hy', hyx'⟩
      · rfl
      · exact (one hy' hyx' hp' hp).elim
    · rcases split hx' with rfl | ⟨y', hy', hyx'⟩
      · exact (one hy hyx hp hp').elim
      · by_cases e : y = y'
        · subst e
          exact (hc y hy).uniq x x' z hyx hyx' hp hp'
        · exact absurd (hyx'.tail hp') (hap y y' hy hy' e z (hyx.tail hp))
  · rcases split hx with rfl | ⟨y, hy, hyx⟩
    · exact hn
    · exact (hc y hy).nodup x hyx

theorem tree_leaf (h : H.refs o = []) : H.Tree o := by
  have hp : ∀ y, ¬ H.Points o y := fun y hy => by rw [Heap.Points, h] at hy; cases hy
  exact tree_of (by rw [h]; exact List.nodup_nil) (fun y hy => (hp y hy).elim)
    (fun y _ hy => (hp y hy).elim) fun y hy => (hp y hy).elim

theorem sameFrom_tree (hs : SameFrom H H' o) (h : H.Tree o) : H'.Tree o := by
  have hr : ∀ {x}, H'.Reaches o x → H.Reaches o x := fun hx => (sameFrom_reaches hs).mpr hx
  have hp : ∀ {x}, H'.Reaches o x → H'.refs x = H.refs x := fun hx =>
    (same_refs (hs _ (hr hx))).symm
  refine ⟨fun x hx hpx => h.root x (hr hx) ?_, fun x x' y hx hx' hpx hpx' =>
    h.uniq x x' y (hr hx) (hr hx') ?_ ?_, fun x hx => ?_⟩
  · rwa [Heap.Points, hp hx] at hpx
  · rwa [Heap.Points, hp hx] at hpx
  · rwa [Heap.Points, hp hx'] at hpx'
  · rw [hp hx]; exact h.nodup x (hr hx)

theorem Heap.Tree.owned (h : H.Tree o) {s : Obj} (hs : H.Points o s) : H.OwnedBy o s :=
  fun o' hr hp => h.uniq o' o s hr .refl hp hs

theorem Heap.Tree.ownMaps {a : Addr} (h : H.Tree (.ty a)) : H.OwnMaps a :=
  fun _ hs => h.owned (maps_points hs)

/-- A getter follows a pointer. -/
theorem get_points {a : Addr} {s : TypeSec} (h : H.get a s = some o) : H.Points (.ty a) o := by
  rw [Heap.Points]
  cases ht : H.ty a with
  | basic i c x => cases s <;> simp [Heap.get, ht] at h; subst h; simp [Heap.refs, ht]
  | ext c p b f ps it =>
    cases s
    case properties =>
      cases b <;> simp [Heap.get, ht] at h
      obtain ⟨x, rfl, rfl⟩ := h; simp [Heap.refs, ht]
    case items =>
      cases b <;> simp [Heap.get, ht] at h
      obtain ⟨x, rfl, rfl⟩ := h; simp [Heap.refs, ht]
    all_goals
      simp only [Heap.get, ht, Option.map_eq_some_iff, Option.some.injEq] at h
      first
        | (subst h; simp [Heap.refs, ht]; done)
        | (obtain ⟨x, hx, rfl⟩ := h; simp [Heap.refs, ht, hx]; done)

/-- One object gets pointers to new trees. -/
structure Plants (p : Obj) (H H' : Heap) : Prop where
  grows : Grows p H H'
  other : ∀ x, x.addr < H.next → x ≠ p → H'.refs x = H.refs x
  nodup : H.Tree p → (H'.refs p).Nodup
  tree : ∀ y, H'.Points p y → H'.Above H.next y → H'.Tree y
  apart : ∀ y y', H'.Points p y → H'.Points p y' → y ≠ y' → H'.Above H.next y →
    H'.Above H.next y' → H'.Apart y y'

theorem Plants.reaches {p : Obj} (h : Plants p H H') (hw : H.Closed) {x : Obj} (ho : o.addr < H.next)
    (hr : H'.Reaches o x) : H.Reaches o x ∨
      ∃ y, H.Reaches o p ∧ H'.Points p y ∧ H'.Above H.next y ∧ H'.Reaches y x := by
  induction hr with
  | refl => exact Or.inl .refl
  | tail _ hp ih =>
    rcases ih with ih | ⟨y, h1, h2, h3, h4⟩
    · rcases h.grows.ptr _ _ (closed_reaches hw ih ho) hp with h1 | ⟨rfl, h1⟩
      · exact Or.inl (ih.tail h1)
      · exact Or.inr ⟨_, ih, hp, h1, .refl⟩
    · exact Or.inr ⟨y, h1, h2, h3, h4.tail hp⟩

/-- Trees stay trees. -/
theorem Plants.keeps {p : Obj} (h : Plants p H H') (hw : H.Closed) (ho : o.addr < H.next)
    (ht : H.Tree o) : H'.Tree o := by
  have old : ∀ {x}, H.Reaches o x → x.addr < H.next := fun hx => closed_reaches hw hx ho
  have new : ∀ {y x}, H'.Above H.next y → H'.Reaches y x → ¬ x.addr < H.next := fun hy hx =>
    Nat.not_lt.mpr (hy _ hx).1
  -- an old and a new pointer to the same object
  have mixed : ∀ {x x' z y}, H.Reaches o x → H'.Points p y → H'.Above H.next y → H'.Reaches y x' →
      H'.Points x z → H'.Points x' z → False := by
    intro x x' z y hx hy hya hyx hp hp'
    have hz : ¬ z.addr < H.next := new hya (hyx.tail hp')
    rcases h.grows.ptr x z (old hx) hp with h1 | ⟨rfl, h1⟩
    · exact hz (hw _ _ h1)
    · by_cases e : y = z
      · subst e
        exact (h.tree y hy hya).root x' hyx hp'
      · exact h.apart y z hy hp e hya h1 z (hyx.tail hp') .refl
  refine ⟨fun x hx hp => ?_, fun x x' z hx hx' hp hp' => ?_, fun x hx => ?_⟩
  · rcases h.reaches hw ho hx with h1 | ⟨y, _, _, h3, h4⟩
    · rcases h.grows.ptr x o (old h1) hp with h2 | ⟨_, h2⟩
      · exact ht.root x h1 h2
      · exact new h2 .refl ho
    · exact new h3 (h4.tail hp) ho
  · rcases h.reaches hw ho hx with h1 | ⟨y, _, h2, h3, h4⟩
    · rcases h.reaches hw ho hx' with h1' | ⟨y', _, h2', h3', h4'⟩
      · rcases h.grows.ptr x z (old h1) hp with q | ⟨rfl, q⟩
        · rcases h.grows.ptr x' z (old h1') hp' with q' | ⟨rfl, q'⟩
          · exact ht.uniq x x' z h1 h1' q q'
          · exact absurd (hw _ _ q) (new q' .refl)
        · rcases h.grows.ptr x' z (old h1') hp' with q' | ⟨rfl, q'⟩
          · exact absurd (hw _ _ q') (new q .refl)
          · rfl
      · exact (mixed h1 h2' h3' h4' hp hp').elim
    · rcases h.reaches hw ho hx' with h1' | ⟨y', _, h2', h3', h4'⟩
      · exact (mixed h1' h2 h3 h4 hp' hp).elim
      · by_cases e : y = y'
        · subst e
          exact (h.tree y h2 h3).uniq x x' z h4 h4' hp hp'
        · exact absurd (h4'.tail hp') (h.apart y y' h2 h2' e h3 h3' z (h4.tail hp))
  · rcases h.reaches hw ho hx with h1 | ⟨y, _, h2, h3, h4⟩
    · by_cases e : x = p
      · subst e
        exact h.nodup (ht.sub h1)
      · rw [h.other x (old h1) e]
        exact ht.nodup x h1
    · exact (h.tree y h2 h3).nodup x h4

end tree

/-! ### New data types are trees -/

/-- Everything in it is at an address in the range. -/
def Heap.Range (H : Heap) (lo hi : Addr) (o : Obj) : Prop :=
  ∀ x, H.Reaches o x → lo ≤ x.addr ∧ x.addr < hi

theorem above_range {H H' : Heap} {lo : Addr} {o : Obj} (h : H.Above lo o) (he : Extends H H') :
    H'.Range lo H.next o := fun x hx => h x ((sameFrom_reaches (h.sameFrom he)).mpr hx)

theorem range_apart {H : Heap} {a b c d : Addr} {o o' : Obj} (h : H.Range a b o)
    (h' : H.Range c d o') (hbc : b ≤ c) : H.Apart o o' := fun x hx hx' =>
  absurd (Nat.lt_of_lt_of_le (h x hx).2 hbc) (Nat.not_lt.mpr (h' x hx').1)

theorem apart_symm {H : Heap} {o o' : Obj} (h : H.Apart o o') : H.Apart o' o :=
  fun x hx hx' => h x hx' hx

theorem sameFrom_apart {H H' : Heap} {o o' : Obj} (hs : SameFrom H H' o) (hs' : SameFrom H H' o')
    (h : H.Apart o o') : H'.Apart o o' := fun x hx hx' =>
  h x ((sameFrom_reaches hs).mpr hx) ((sameFrom_reaches hs').mpr hx')

/-- The objects of a list of entries are trees that have nothing in common. -/
structure TreesL (mk : Addr → Obj) (H : Heap) (r : List (String × Addr)) : Prop where
  tree : ∀ e ∈ r, H.Tree (mk e.2)
  apart : r.Pairwise fun e e' => H.Apart (mk e.2) (mk e'.2)

theorem TreesL.ext {mk : Addr → Obj} {H H' : Heap} {r : List (String × Addr)} {lo : Addr}
    (h : TreesL mk H r) (ha : ∀ e ∈ r, H.Above lo (mk e.2)) (he : Extends H H') : TreesL mk H' r :=
  ⟨fun e hm => sameFrom_tree ((ha e hm).sameFrom he) (h.tree e hm),
    h.apart.imp_of_mem fun hm hm' hp =>
      sameFrom_apart ((ha _ hm).sameFrom he) ((ha _ hm').sameFrom he) hp⟩

theorem tree_map {H : Heap} {o : Obj} {mk : Addr → Obj} {r : List (String × Addr)}
    (hr : H.refs o = r.map fun e => mk e.2) (h : TreesL mk H r)
    (hno : ∀ e ∈ r, ¬ H.Reaches (mk e.2) o) : H.Tree o := by
  have hm : ∀ y, H.Points o y → ∃ e ∈ r, mk e.2 = y := fun y hy => by
    rw [Heap.Points, hr] at hy
    exact List.mem_map.mp hy
  refine tree_of ?_ ?_ ?_ ?_
  · rw [hr, List.Nodup, List.pairwise_map]
    refine h.apart.imp fun {e e'} hp (q : mk e.2 = mk e'.2) => ?_
    rw [q] at hp
    exact hp _ .refl .refl
  · intro y hy
    obtain ⟨e, he, rfl⟩ := hm y hy
    exact h.tree e he
  · intro y y' hy hy' hne
    obtain ⟨e, he, rfl⟩ := hm y hy
    obtain ⟨e', he', rfl⟩ := hm y' hy'
    have hq : r.Pairwise fun e e' => mk e.2 ≠ mk e'.2 → H.Apart (mk e.2) (mk e'.2) := by
      refine h.apart.imp ?_
      intro e e' hp _
      exact hp
    have : Std.Symm fun e e' : String × Addr => mk e.2 ≠ mk e'.2 → H.Apart (mk e.2) (mk e'.2) :=
      ⟨fun _ _ hs hn => apart_symm (hs hn.symm)⟩
    exact hq.forall_of_forall (fun e _ hn => absurd rfl hn) he he' hne
  · intro y hy
    obtain ⟨e, he, rfl⟩ := hm y hy
    exact hno e he

theorem storeExs_trees (es : List (String × Example)) (H : Heap) :
    TreesL .ex (H.storeExs es).2 (H.storeExs es).1 := by
  refine ⟨fun e _ => tree_leaf rfl, ?_⟩
  have leaf : ∀ {H : Heap} {a b : Addr}, a ≠ b → H.Apart (.ex a) (.ex b) := by
    intro H a b hne x hx hx'
    have hl : ∀ {c : Addr}, H.Reaches (.ex c) x → x = .ex c := fun h => by
      rcases ReflTransGen.cases_head h with e | ⟨y, hy, _⟩
      · exact e.symm
      · cases hy
    have := (hl hx).symm.trans (hl hx')
    cases this
    exact hne rfl
  suffices (H.storeExs es).1.Pairwise fun e e' => e.2 < e'.2 by
    exact this.imp fun h => leaf (Nat.ne_of_lt h)
  induction es generalizing H with
  | nil => exact .nil
  | cons e es ih =>
    rw [Heap.storeExs]
    exact .cons (fun x hx => ((storeExs_ok es _).2.1 x hx).1) (ih _)

/-- An object at `n`, or one whose address is in the range. -/
def Piece (F : Heap) (n lo hi : Nat) (y : Obj) : Prop :=
  ∀ x, F.Reaches y x → x = y ∧ y.addr = n ∨ lo ≤ x.addr ∧ x.addr < hi

theorem piece_leaf {F : Heap} {n lo hi : Nat} {y : Obj} (h : F.refs y = []) (hn : y.addr = n) :
    Piece F n lo hi y := by
  intro x hx
  rcases ReflTransGen.cases_head hx with e | ⟨z, hz, _⟩
  · exact Or.inl ⟨e.symm, hn⟩
  · rw [Heap.Points, h] at hz; cases hz

theorem piece_map {F : Heap} {n lo hi : Nat} {y : Obj} {mk : Addr → Obj} {r : List (String × Addr)}
    (hr : F.refs y = r.map fun e => mk e.2) (hn : y.addr = n)
    (h : ∀ e ∈ r, F.Range lo hi (mk e.2)) : Piece F n lo hi y := by
  intro x hx
  rcases ReflTransGen.cases_head hx with e | ⟨z, hz, hzx⟩
  · exact Or.inl ⟨e.symm, hn⟩
  · rw [Heap.Points, hr] at hz
    obtain ⟨e, he, rfl⟩ := List.mem_map.mp hz
    exact Or.inr (h e he x hzx)

theorem piece_apart {F : Heap} {n lo hi lo' hi' : Nat} {y y' : Obj} (h : Piece F n lo hi y)
    (h' : Piece F n lo' hi' y') (hne : y ≠ y') (hb : hi ≤ n) (hb' : hi' ≤ n)
    (hd : hi ≤ lo' ∨ hi' ≤ lo) : F.Apart y y' := by
  intro x hx hx'
  rcases h x hx with ⟨e, q⟩ | ⟨q1, q2⟩ <;> rcases h' x hx' with ⟨e', q'⟩ | ⟨q1', q2'⟩
  · exact hne (e.symm.trans e')
  · rw [e, q] at q2'
    exact absurd q2' (Nat.not_lt.mpr hb')
  · rw [e', q'] at q2
    exact absurd q2 (Nat.not_lt.mpr hb)
  · rcases hd with hd | hd
    · exact absurd (Nat.lt_of_lt_of_le q2 hd) (Nat.not_lt.mpr q1')
    · exact absurd (Nat.lt_of_lt_of_le q2' hd) (Nat.not_lt.mpr q1)

/-- The sort of an object that a data type points to. -/
def Obj.sort : Obj → Nat
  | .fm _ => 0
  | .tm _ => 1
  | .ty _ => 2
  | .em _ => 3
  | .xm _ => 4
  | .am _ => 5
  | .xo _ => 6
  | .ex _ => 7
  | _ => 8

/-- The addresses of what is in a new data type, by sort. -/
def bounds (l0 l1 l2 l3 n : Nat) : Nat → Nat × Nat
  | 0 => (l0, l1)
  | 1 => (l1, l2)
  | 2 => (l2, l3)
  | 3 => (l3, n)
  | _ => (0, 0)

theorem bounds_disjoint {l0 l1 l2 l3 n : Nat} (h2 : l1 ≤ l2) (h3 : l2 ≤ l3)
    {s s' : Nat} (hne : s ≠ s') :
    (bounds l0 l1 l2 l3 n s).2 ≤ (bounds l0 l1 l2 l3 n s').1 ∨
      (bounds l0 l1 l2 l3 n s').2 ≤ (bounds l0 l1 l2 l3 n s).1 := by
  unfold bounds
  split <;> split <;> simp only at hne ⊢ <;> omega

theorem bounds_le {l0 l1 l2 l3 n : Nat} (h2 : l1 ≤ l2) (h3 : l2 ≤ l3)
    (h4 : l3 ≤ n) (s : Nat) : (bounds l0 l1 l2 l3 n s).2 ≤ n := by
  unfold bounds
  split <;> simp only <;> omega

/-- The parts of a new extended data type. -/
theorem storeExt_at (H : Heap) (h : Hdr) (b : Body) (fs ps : OM String Addr) (it : Option Addr) :
    let r := H.storeExs h.examples.ents
    let n := r.2.next
    let F := (H.storeExt h b fs ps it).2
    (H.storeExt h b fs ps it).1 = n ∧ F.next = n + 1 ∧ F.em n = ⟨r.1, h.examples.omap⟩ ∧
      F.fm n = fs ∧ ∃ pp, F.ty n = .ext h ⟨n, n, h.xml.map fun _ => n, h.example.map fun _ => n, n⟩ b n
        pp it ∧ ∀ m, pp = some m → m = n ∧ F.tm n = ps := by
  dsimp only [Heap.storeExt]
  refine ⟨rfl, rfl, upd_self _ _ _, upd_self _ _ _, _, upd_self _ _ _, fun m hm => ?_⟩
  generalize (b.isObject || !ps.ents.isEmpty || ps.omap) = q at hm ⊢
  cases q with
  | false => cases hm
  | true => cases hm; exact ⟨rfl, upd_self _ _ _⟩

theorem storeExt_tree {H : Heap} {h : Hdr} {b : Body} {fs ps : List (String × Addr)} {fo po : Bool}
    {it : Option Addr} {l0 l1 l2 : Nat} (h2 : l1 ≤ l2) (h3 : l2 ≤ H.next)
    (he : Extends H (H.storeExt h b ⟨fs, fo⟩ ⟨ps, po⟩ it).2)
    (fr : ∀ e ∈ fs, H.Range l0 l1 (.tm e.2)) (pr : ∀ e ∈ ps, H.Range l1 l2 (.ty e.2))
    (ir : ∀ a ∈ it, H.Range l2 H.next (.ty a)) (ft : TreesL .tm H fs) (pt : TreesL .ty H ps)
    (itt : ∀ a ∈ it, H.Tree (.ty a)) :
    (H.storeExt h b ⟨fs, fo⟩ ⟨ps, po⟩ it).2.Tree
      (.ty (H.storeExt h b ⟨fs, fo⟩ ⟨ps, po⟩ it).1) := by
  obtain ⟨e1, e2, eem, efm, pp, ety, etm⟩ := storeExt_at H h b ⟨fs, fo⟩ ⟨ps, po⟩ it
  obtain ⟨x1, x2, -, -⟩ := storeExs_ok h.examples.ents H
  have xt := storeExs_trees h.examples.ents H
  rw [e1]
  generalize (H.storeExt h b ⟨fs, fo⟩ ⟨ps, po⟩ it).2 = F at *
  generalize (H.storeExs h.examples.ents).1 = xs at *
  generalize hG : (H.storeExs h.examples.ents).2 = G at *
  generalize hn : G.next = n at *
  have h4 : H.next ≤ n := by rw [← hn]; exact x1.next
  have hlt : ∀ {x : Obj}, x.addr < H.next → x.addr < F.next := fun hx =>
    Nat.lt_of_lt_of_le hx he.next
  -- what was there before
  have rab : ∀ {lo hi o}, hi ≤ H.next → H.Range lo hi o → H.Above lo o := fun hb hr x hx =>
    ⟨(hr x hx).1, Nat.lt_of_lt_of_le (hr x hx).2 hb⟩
  have rext : ∀ {lo hi o}, hi ≤ H.next → H.Range lo hi o → F.Range lo hi o := fun hb hr x hx =>
    hr x ((sameFrom_reaches ((rab hb hr).sameFrom he)).mpr hx)
  have fr' : ∀ e ∈ fs, F.Range l0 l1 (.tm e.2) := fun e hm => rext (Nat.le_trans h2 h3) (fr e hm)
  have pr' : ∀ e ∈ ps, F.Range l1 l2 (.ty e.2) := fun e hm => rext h3 (pr e hm)
  have ir' : ∀ a ∈ it, F.Range l2 H.next (.ty a) := fun a hm => rext (Nat.le_refl _) (ir a hm)
  have ft' : TreesL .tm F fs := ft.ext (fun e hm => rab (Nat.le_trans h2 h3) (fr e hm)) he
  have pt' : TreesL .ty F ps := pt.ext (fun e hm => rab h3 (pr e hm)) he
  have it' : ∀ a ∈ it, F.Tree (.ty a) := fun a hm =>
    sameFrom_tree ((rab (Nat.le_refl _) (ir a hm)).sameFrom he) (itt a hm)
  have exr : ∀ e ∈ xs, F.Range H.next n (.ex e.2) := by
    intro e hm x hx
    rcases ReflTransGen.cases_head hx with q | ⟨y, hy, _⟩
    · rw [← q]; exact x2 e hm
    · cases hy
  have xt' : TreesL .ex F xs := by
    refine ⟨fun e _ => tree_leaf rfl, xt.apart.imp fun hp x hx hx' => ?_⟩
    have hl : ∀ {c : Addr}, F.Reaches (.ex c) x → x = .ex c := fun h => by
      rcases ReflTransGen.cases_head h with e | ⟨y, hy, _⟩
      · exact e.symm
      · cases hy
    exact hp x (hl hx ▸ .refl) (hl hx' ▸ .refl)
  have no : ∀ {lo hi o o'}, hi ≤ n → F.Range lo hi o → o'.addr = n → ¬ F.Reaches o o' :=
    fun hb hr ho hx => by
      have := (hr _ hx).2
      rw [ho] at this
      exact absurd this (Nat.not_lt.mpr hb)
  have hem : F.refs (.em n) = xs.map fun e => .ex e.2 := by simp only [Heap.refs, eem]
  have hfm : F.refs (.fm n) = fs.map fun e => .tm e.2 := by simp only [Heap.refs, efm]
  have htm : ∀ m, pp = some m → F.refs (.tm m) = ps.map fun e => .ty e.2 := fun m hm => by
    rw [(etm m hm).1]; simp only [Heap.refs, (etm m hm).2]
  have b1 : l1 ≤ n := Nat.le_trans h2 (Nat.le_trans h3 h4)
  have b2 : l2 ≤ n := Nat.le_trans h3 h4
  -- what the data type points to
  have child : ∀ y, F.Points (.ty n) y → F.Tree y ∧
      Piece F n (bounds l0 l1 l2 H.next n y.sort).1 (bounds l0 l1 l2 H.next n y.sort).2 y ∧
      ¬ F.Reaches y (.ty n) := by
    intro y hy
    have leafn : ∀ {z : Obj}, F.refs z = [] → z.addr = n → z ≠ .ty n → z = y →
        F.Tree y ∧ Piece F n (bounds l0 l1 l2 H.next n y.sort).1
          (bounds l0 l1 l2 H.next n y.sort).2 y ∧ ¬ F.Reaches y (.ty n) := by
      rintro z hz hzn hne rfl
      refine ⟨tree_leaf hz, piece_leaf hz hzn, fun hr => ?_⟩
      rcases ReflTransGen.cases_head hr with e | ⟨w, hw, _⟩
      · exact hne e
      · rw [Heap.Points, hz] at hw; cases hw
    have mapn : ∀ {z : Obj} {mk : Addr → Obj} {r : List (String × Addr)} {lo hi : Nat},
        F.refs z = (r.map fun e => mk e.2) → z.addr = n → z ≠ .ty n → TreesL mk F r →
        (∀ e ∈ r, F.Range lo hi (mk e.2)) → hi ≤ n →
        F.Tree z ∧ Piece F n lo hi z ∧ ¬ F.Reaches z (.ty n) := by
      intro z mk r lo hi hz hzn hne ht hr hb
      have hp := piece_map hz hzn hr
      refine ⟨tree_map hz ht fun e hm => no hb (hr e hm) hzn, hp, fun hx => ?_⟩
      rcases hp _ hx with q | q
      · exact hne q.1.symm
      · exact absurd q.2 (Nat.not_lt.mpr hb)
    rw [mem_refs_ext ety] at hy
    rcases hy with ((((rfl | rfl | rfl | rfl) | ⟨x, hx, rfl⟩) | ⟨x, hx, rfl⟩) | ⟨x, hx, rfl⟩) |
      ⟨x, hx, rfl⟩
    · exact leafn rfl rfl (by simp) rfl
    · exact leafn rfl rfl (by simp) rfl
    · exact mapn hem rfl (by simp) xt' exr (Nat.le_refl _)
    · exact mapn hfm rfl (by simp) ft' fr' b1
    · obtain ⟨_, _, rfl⟩ := Option.map_eq_some_iff.mp hx
      exact leafn rfl rfl (by simp) rfl
    · obtain ⟨_, _, rfl⟩ := Option.map_eq_some_iff.mp hx
      exact leafn rfl rfl (by simp) rfl
    · exact mapn (htm x hx) (etm x hx).1 (by simp) pt' pr' b2
    · exact ⟨it' x hx, fun z hz => Or.inr (ir' x hx z hz), no h4 (ir' x hx) rfl⟩
  refine tree_of ?_ (fun y hy => (child y hy).1) (fun y y' hy hy' hne => ?_)
    fun y hy => (child y hy).2.2
  · simp only [Heap.refs, ety]
    cases h.xml <;> cases h.example <;> cases pp <;> cases it <;> simp
  · refine piece_apart (child y hy).2.1 (child y' hy').2.1 hne (bounds_le h2 h3 h4 _)
      (bounds_le h2 h3 h4 _) (bounds_disjoint h2 h3 fun hs => ?_)
    rw [mem_refs_ext ety] at hy hy'
    rcases hy with ((((rfl | rfl | rfl | rfl) | ⟨x, hx, rfl⟩) | ⟨x, hx, rfl⟩) | ⟨x, hx, rfl⟩) |
      ⟨x, hx, rfl⟩ <;>
    rcases hy' with ((((rfl | rfl | rfl | rfl) | ⟨x', hx', rfl⟩) | ⟨x', hx', rfl⟩) | ⟨x', hx', rfl⟩) |
      ⟨x', hx', rfl⟩ <;> simp only [Obj.sort, reduceCtorEq, Nat.reduceEqDiff] at hs <;>
      first
        | exact hne rfl
        | (rw [hx] at hx'; cases hx'; exact hne rfl)

mutual

theorem storeT_tree : ∀ (t : DT) (H : Heap), (H.storeT t).2.Tree (.ty (H.storeT t).1)
  | .basic i s x, H => by
    rw [Heap.storeT]
    have hr : Heap.refs { H with
        next := H.next + 1
        ty := upd H.ty H.next (.basic i s H.next)
        xm := upd H.xm H.next x } (.ty H.next) = [.xm H.next] := by
      simp only [Heap.refs, upd_self]
    refine tree_of ?_ ?_ ?_ ?_
    · rw [hr]; simp
    · intro y hy
      rw [Heap.Points, hr, List.mem_singleton] at hy
      subst hy
      exact tree_leaf rfl
    · intro y y' hy hy' hne
      rw [Heap.Points, hr, List.mem_singleton] at hy hy'
      exact absurd (hy.trans hy'.symm) hne
    · intro y hy hx
      rw [Heap.Points, hr, List.mem_singleton] at hy
      subst hy
      rcases ReflTransGen.cases_head hx with e | ⟨z, hz, _⟩
      · cases e
      · cases hz
  | .ext h b ⟨fs, fo⟩ ⟨ps, po⟩ it, H => by
    have r1 := storeFL_ok fs H
    have r2 := storeL_ok ps (H.storeFL fs).2
    have r3 := storeI_ok it (Heap.storeL ps (H.storeFL fs).2).2
    have t1 := storeFL_tree fs H
    have t2 := storeL_tree ps (H.storeFL fs).2
    have t3 := storeI_tree it (Heap.storeL ps (H.storeFL fs).2).2
    rw [Heap.storeT, Heap.storeF, Heap.storeM]
    generalize H.storeFL fs = q1 at *
    generalize Heap.storeL ps q1.2 = q2 at *
    generalize Heap.storeI it q2.2 = q3 at *
    have h12 := r1.ext
    have h23 := r2.ext
    have h34 := r3.1
    obtain ⟨n1, v1⟩ := r1.val
    obtain ⟨n2, v2⟩ := r2.val
    have hp : Parts H.next q3.2 fs ps it q1.1 q2.1 q3.1 := by
      refine ⟨(h12.trans (h23.trans h34)).next, ?_, ?_, ?_, ⟨n1, ?_⟩, ⟨n2, ?_⟩, r3.2.2.1⟩
      · exact fun e he => (r1.above e he).ext (h23.trans h34)
      · exact fun e he => ((r2.above e he).ext h34).mono h12.next
      · exact fun a ha => (r3.2.1 a ha).mono (Nat.le_trans h12.next h23.next)
      · rw [facetsExt r1.above (h23.trans h34)]; exact v1
      · rw [listExt r2.above h34]; exact v2
    obtain ⟨s1, -, -, -⟩ := storeExt_ok (h := h) (b := b) (fo := fo) (po := po) hp
    exact storeExt_tree h23.next h34.next s1
      (fun e he => above_range (r1.above e he) (h23.trans h34))
      (fun e he => above_range (r2.above e he) h34) (fun a ha => r3.2.1 a ha)
      (t1.ext r1.above (h23.trans h34)) (t2.ext r2.above h34) t3

theorem storeI_tree : ∀ (it : Option DT) (H : Heap), ∀ a ∈ (H.storeI it).1,
    (H.storeI it).2.Tree (.ty a)
  | none, H => by
    rw [Heap.storeI]
    exact fun a ha => (by cases ha)
  | some t, H => by
    have r := storeT_tree t H
    rw [Heap.storeI]
    intro a ha
    cases ha; exact r

theorem storeL_tree : ∀ (es : List (String × DT)) (H : Heap),
    TreesL .ty (H.storeL es).2 (H.storeL es).1
  | [], H => by
    rw [Heap.storeL]
    exact ⟨fun e he => (by cases he), .nil⟩
  | (k, t) :: es, H => by
    have r := storeT_ok t H
    have q := storeL_ok es (H.storeT t).2
    have r' := storeT_tree t H
    have q' := storeL_tree es (H.storeT t).2
    rw [Heap.storeL, Heap.storeE]
    generalize H.storeT t = r1 at *
    generalize Heap.storeL es r1.2 = q1 at *
    refine ⟨fun e he => ?_, .cons (fun e he => ?_) q'.apart⟩
    · rcases List.mem_cons.mp he with rfl | he
      · exact sameFrom_tree (r.above.sameFrom q.ext) r'
      · exact q'.tree e he
    · exact range_apart (above_range r.above q.ext) (q.above e he) (Nat.le_refl _)

theorem storeFL_tree : ∀ (es : List (String × OM String DT)) (H : Heap),
    TreesL .tm (H.storeFL es).2 (H.storeFL es).1
  | [], H => by
    rw [Heap.storeFL]
    exact ⟨fun e he => (by cases he), .nil⟩
  | (k, ⟨ts, o⟩) :: es, H => by
    have r := storeL_ok ts H
    have r' := storeL_tree ts H
    have f := storeFE_ok (k, ⟨ts, o⟩) H
    have q := storeFL_ok es (H.storeFE (k, ⟨ts, o⟩)).2
    have q' := storeFL_tree es (H.storeFE (k, ⟨ts, o⟩)).2
    have hf : (H.storeFE (k, ⟨ts, o⟩)).2.Tree (.tm (H.storeFE (k, ⟨ts, o⟩)).1.2) := by
      have hF : Extends (H.storeL ts).2 (H.storeFE (k, ⟨ts, o⟩)).2 := by
        rw [Heap.storeFE, Heap.storeM]
        refine ⟨Nat.le_succ _, fun o ho => ?_⟩
        cases o with
        | tm a => exact (upd_ne _ _ (Nat.ne_of_lt ho)).symm
        | _ => rfl
      refine tree_map (mk := .ty) (r := (H.storeL ts).1) ?_ (r'.ext r.above hF) fun e he hx => ?_
      · rw [Heap.storeFE, Heap.storeM]
        simp only [Heap.refs, upd_self]
      · have := (above_range (r.above e he) hF _ hx).2
        rw [Heap.storeFE, Heap.storeM] at this
        exact absurd this (Nat.lt_irrefl _)
    rw [Heap.storeFL]
    generalize H.storeFE (k, ⟨ts, o⟩) = r1 at *
    generalize Heap.storeFL es r1.2 = q1 at *
    refine ⟨fun e he => ?_, .cons (fun e he => ?_) q'.apart⟩
    · rcases List.mem_cons.mp he with rfl | he
      · exact sameFrom_tree (f.above.sameFrom q.ext) hf
      · exact q'.tree e he
    · exact range_apart (above_range f.above q.ext) (q.above e he) (Nat.le_refl _)

end

theorem storeFE_tree (e : String × OM String DT) (H : Heap) :
    (H.storeFE e).2.Tree (.tm (H.storeFE e).1.2) := by
  have h := storeFL_tree [e] H
  rw [storeFL_one] at h
  exact h.tree _ List.mem_cons_self

end Verif.Doc
