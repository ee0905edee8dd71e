import Verif.Doc.HeapReach

/-! # Lemmas about new objects -/

namespace Verif.Doc
open Relation

@[simp] theorem upd_self {α : Type} (f : Addr → α) (a : Addr) (x : α) : upd f a x a = x := by
  simp [upd]

theorem upd_ne {α : Type} (f : Addr → α) {a b : Addr} (x : α) (h : b ≠ a) : upd f a x b = f b := by
  simp [upd, h]

/-! ### Extending a heap -/

theorem Extends.refl (H : Heap) : Extends H H := ⟨Nat.le_refl _, fun o _ => same_refl H o⟩

theorem Extends.trans {H H' H'' : Heap} (h : Extends H H') (h' : Extends H' H'') :
    Extends H H'' :=
  ⟨Nat.le_trans h.next h'.next,
    fun o ho => same_trans (h.same o ho) (h'.same o (Nat.lt_of_lt_of_le ho h.next))⟩

section
variable {H H' : Heap} {lo : Addr} {o : Obj}

theorem Heap.Above.sameFrom (h : H.Above lo o) (he : Extends H H') : SameFrom H H' o :=
  fun o' hr => he.same o' (h o' hr).2

theorem Heap.Above.ext (h : H.Above lo o) (he : Extends H H') : H'.Above lo o :=
  fun o' hr => by
    have := h o' ((sameFrom_reaches (h.sameFrom he)).mpr hr)
    exact ⟨this.1, Nat.lt_of_lt_of_le this.2 he.next⟩

theorem Heap.Above.mono {lo' : Addr} (h : H.Above lo o) (hl : lo' ≤ lo) : H.Above lo' o :=
  fun o' hr => ⟨Nat.le_trans hl (h o' hr).1, (h o' hr).2⟩

theorem Heap.Above.self (h : H.Above lo o) : lo ≤ o.addr ∧ o.addr < H.next := h o .refl

theorem above_of_refs (h1 : lo ≤ o.addr) (h2 : o.addr < H.next)
    (h : ∀ o' ∈ H.refs o, H.Above lo o') : H.Above lo o := by
  intro o' hr
  rcases hr.cases_head with rfl | ⟨o1, hp, hr⟩
  · exact ⟨h1, h2⟩
  · exact h o1 hp o' hr

theorem above_leaf (h1 : lo ≤ o.addr) (h2 : o.addr < H.next) (h : H.refs o = []) :
    H.Above lo o :=
  above_of_refs h1 h2 fun o' ho => by rw [h] at ho; cases ho

theorem closed_above (hw : H.Closed) (ho : o.addr < H.next) : H.Above 0 o :=
  fun _ hr => ⟨Nat.zero_le _, closed_reaches hw hr ho⟩

theorem closed_of (hw : H.Closed) (hn : H.next ≤ H'.next)
    (h : ∀ o, H'.refs o = H.refs o ∨ ∀ o' ∈ H'.refs o, o'.addr < H'.next) : H'.Closed := by
  intro o o' hp
  rcases h o with h | h
  · exact Nat.lt_of_lt_of_le (hw o o' (show o' ∈ H.refs o from h ▸ hp)) hn
  · exact h o' hp

end

/-! ### New objects have the value given and share nothing -/

theorem storeExs_ok (es : List (String × Example)) (H : Heap) :
    Extends H (H.storeExs es).2 ∧
    (∀ e ∈ (H.storeExs es).1, H.next ≤ e.2 ∧ e.2 < (H.storeExs es).2.next) ∧
    (H.storeExs es).1.map (fun e => (e.1, (H.storeExs es).2.ex e.2)) = es ∧
    (H.Closed → (H.storeExs es).2.Closed) := by
  induction es generalizing H with
  | nil => exact ⟨.refl H, fun e he => (by cases he), rfl, id⟩
  | cons e es ih =>
    have h1 : Extends H { H with ex := upd H.ex H.next e.2, next := H.next + 1 } := by
      refine ⟨Nat.le_succ _, fun o ho => ?_⟩
      cases o with
      | ex a => exact (upd_ne _ _ (Nat.ne_of_lt ho)).symm
      | _ => rfl
    obtain ⟨i1, i2, i3, i4⟩ := ih { H with ex := upd H.ex H.next e.2, next := H.next + 1 }
    rw [Heap.storeExs]
    refine ⟨h1.trans i1, ?_, ?_, fun hw => i4 ?_⟩
    · intro x hx
      rcases List.mem_cons.mp hx with rfl | hx
      · exact ⟨Nat.le_refl _, Nat.lt_of_lt_of_le (Nat.lt_succ_self _) i1.next⟩
      · exact ⟨Nat.le_trans (Nat.le_succ _) (i2 x hx).1, (i2 x hx).2⟩
    · rw [List.map_cons, i3]
      have : (Heap.storeExs es { H with ex := upd H.ex H.next e.2, next := H.next + 1 }).2.ex H.next
          = e.2 := by
        have := i1.same (.ex H.next) (Nat.lt_succ_self _)
        exact (show _ = _ from this).symm.trans (upd_self _ _ _)
      rw [this]
    · refine closed_of hw (Nat.le_succ _) fun o => Or.inl ?_
      cases o <;> rfl

/-- What is claimed about a new data type. -/
structure StoredT (H : Heap) (t : DT) (r : Addr × Heap) : Prop where
  ext : Extends H r.2
  above : r.2.Above H.next (.ty r.1)
  val : ∃ n, r.2.val n r.1 = some t
  closed : H.Closed → r.2.Closed

/-- … about the data types of a list of entries. -/
structure StoredL (H : Heap) (es : List (String × DT)) (r : List (String × Addr) × Heap) :
    Prop where
  ext : Extends H r.2
  above : ∀ e ∈ r.1, r.2.Above H.next (.ty e.2)
  val : ∃ n, (r.1.mapM fun e => (r.2.val n e.2).map fun y => (e.1, y)) = some es
  closed : H.Closed → r.2.Closed

/-- … about the facets of a list of entries. -/
structure StoredFL (H : Heap) (es : List (String × OM String DT))
    (r : List (String × Addr) × Heap) : Prop where
  ext : Extends H r.2
  above : ∀ e ∈ r.1, r.2.Above H.next (.tm e.2)
  val : ∃ n, (r.1.mapM fun e => (followMap (r.2.val n) (r.2.tm e.2)).map fun y => (e.1, y)) =
    some es
  closed : H.Closed → r.2.Closed

theorem valExt {H H' : Heap} {lo n : Nat} {a : Addr} (h : H.Above lo (.ty a)) (he : Extends H H') :
    H'.val n a = H.val n a := (sameFrom_val n (h.sameFrom he)).symm

theorem mapExt {H H' : Heap} {lo n : Nat} {m : Addr} (h : H.Above lo (.tm m)) (he : Extends H H') :
    followMap (H'.val n) (H'.tm m) = followMap (H.val n) (H.tm m) :=
  (sameFrom_tm (h.sameFrom he) fun _ hc => sameFrom_val n hc).symm

theorem listExt {H H' : Heap} {lo n : Nat} {es : List (String × Addr)}
    (h : ∀ e ∈ es, H.Above lo (.ty e.2)) (he : Extends H H') :
    (es.mapM fun e => (H'.val n e.2).map fun y => (e.1, y)) =
      es.mapM fun e => (H.val n e.2).map fun y => (e.1, y) :=
  mapM_congr fun e hm => by rw [valExt (h e hm) he]

theorem facetsExt {H H' : Heap} {lo n : Nat} {es : List (String × Addr)}
    (h : ∀ e ∈ es, H.Above lo (.tm e.2)) (he : Extends H H') :
    (es.mapM fun e => (followMap (H'.val n) (H'.tm e.2)).map fun y => (e.1, y)) =
      es.mapM fun e => (followMap (H.val n) (H.tm e.2)).map fun y => (e.1, y) :=
  mapM_congr fun e hm => by rw [mapExt (h e hm) he]

theorem listMono {H : Heap} {n m : Nat} (hnm : n ≤ m) {es : List (String × Addr)}
    {ys : List (String × DT)}
    (h : (es.mapM fun e => (H.val n e.2).map fun y => (e.1, y)) = some ys) :
    (es.mapM fun e => (H.val m e.2).map fun y => (e.1, y)) = some ys := by
  refine mapM_mono (fun e _ y hy => ?_) h
  obtain ⟨t, ht, rfl⟩ := Option.map_eq_some_iff.mp hy
  rw [val_mono hnm ht]; rfl

theorem mapMono {H : Heap} {n m : Nat} (hnm : n ≤ m) {x : OM String Addr}
    {y : OM String DT} (h : followMap (H.val n) x = some y) : followMap (H.val m) x = some y :=
  followMap_mono (fun _ _ _ hy => val_mono hnm hy) h

theorem facetsMono {H : Heap} {n m : Nat} (hnm : n ≤ m) {es : List (String × Addr)}
    {ys : List (String × OM String DT)}
    (h : (es.mapM fun e => (followMap (H.val n) (H.tm e.2)).map fun y => (e.1, y)) = some ys) :
    (es.mapM fun e => (followMap (H.val m) (H.tm e.2)).map fun y => (e.1, y)) = some ys := by
  refine mapM_mono (fun e _ y hy => ?_) h
  obtain ⟨t, ht, rfl⟩ := Option.map_eq_some_iff.mp hy
  rw [mapMono hnm ht]; rfl

/-- The parts of a new extended data type, before it is put together. -/
structure Parts (lo : Addr) (H : Heap) (fs : List (String × OM String DT)) (ps : List (String × DT))
    (it : Option DT) (fs' ps' : List (String × Addr)) (it' : Option Addr) : Prop where
  le : lo ≤ H.next
  fa : ∀ e ∈ fs', H.Above lo (.tm e.2)
  pa : ∀ e ∈ ps', H.Above lo (.ty e.2)
  ia : ∀ a ∈ it', H.Above lo (.ty a)
  fv : ∃ n, (fs'.mapM fun e => (followMap (H.val n) (H.tm e.2)).map fun y => (e.1, y)) = some fs
  pv : ∃ n, (ps'.mapM fun e => (H.val n e.2).map fun y => (e.1, y)) = some ps
  iv : ∃ n, followOpt (H.val n) it' = some it

theorem storeExt_ok {lo : Addr} {H : Heap} {h : Hdr} {b : Body}
    {fs : List (String × OM String DT)} {fo po : Bool} {ps : List (String × DT)} {it : Option DT}
    {fs' ps' : List (String × Addr)} {it' : Option Addr} (hp : Parts lo H fs ps it fs' ps' it') :
    Extends H (H.storeExt h b ⟨fs', fo⟩ ⟨ps', po⟩ it').2 ∧
    (H.storeExt h b ⟨fs', fo⟩ ⟨ps', po⟩ it').2.Above lo
      (.ty (H.storeExt h b ⟨fs', fo⟩ ⟨ps', po⟩ it').1) ∧
    (∃ n, (H.storeExt h b ⟨fs', fo⟩ ⟨ps', po⟩ it').2.val n
      (H.storeExt h b ⟨fs', fo⟩ ⟨ps', po⟩ it').1 = some (.ext h b ⟨fs, fo⟩ ⟨ps, po⟩ it)) ∧
    (H.Closed → (H.storeExt h b ⟨fs', fo⟩ ⟨ps', po⟩ it').2.Closed) := by
  obtain ⟨x1, x2, x3, x4⟩ := storeExs_ok h.examples.ents H
  generalize hG : (H.storeExs h.examples.ents).2 = G at x1 x2 x3 x4
  generalize hX : (H.storeExs h.examples.ents).1 = xs at x2 x3
  generalize hn : G.next = n
  generalize hP : (b.isObject || !ps'.isEmpty || po) = hasP
  generalize hF : (H.storeExt h b ⟨fs', fo⟩ ⟨ps', po⟩ it') = F
  have hF' : F = (n, { G with
      next := n + 1
      ty := upd G.ty n (.ext h ⟨n, n, h.xml.map fun _ => n, h.example.map fun _ => n, n⟩ b n
        (if hasP then some n else none) it')
      xm := upd G.xm n h.extra
      am := upd G.am n h.annotations
      em := upd G.em n ⟨xs, h.examples.omap⟩
      fm := upd G.fm n ⟨fs', fo⟩
      tm := if hasP then upd G.tm n ⟨ps', po⟩ else G.tm
      xo := (h.xml.map fun x => upd G.xo n x).getD G.xo
      ex := (h.example.map fun x => upd G.ex n x).getD G.ex }) := by
    rw [← hF, Heap.storeExt]
    simp only [hG, hX, hn, hP]
  have e2 : F.2.next = n + 1 := by rw [hF']
  have e1 : F.1 = n := by rw [hF']
  have ety : F.2.ty n = .ext h ⟨n, n, h.xml.map fun _ => n, h.example.map fun _ => n, n⟩ b n
      (if hasP then some n else none) it' := by rw [hF']; exact upd_self _ _ _
  have exm : F.2.xm n = h.extra := by rw [hF']; exact upd_self _ _ _
  have eam : F.2.am n = h.annotations := by rw [hF']; exact upd_self _ _ _
  have eem : F.2.em n = ⟨xs, h.examples.omap⟩ := by rw [hF']; exact upd_self _ _ _
  have efm : F.2.fm n = ⟨fs', fo⟩ := by rw [hF']; exact upd_self _ _ _
  have etm : hasP = true → F.2.tm n = ⟨ps', po⟩ := by
    intro hh; rw [hF', hh]; exact upd_self _ _ _
  have exo : (h.xml.map fun _ => n).map F.2.xo = h.xml := by
    rw [hF']
    cases h.xml with
    | none => rfl
    | some x => exact congrArg some (upd_self _ _ _)
  have eex : (h.example.map fun _ => n).map F.2.ex = h.example := by
    rw [hF']
    cases h.example with
    | none => rfl
    | some x => exact congrArg some (upd_self _ _ _)
  have hGF : Extends G F.2 := by
    refine ⟨by rw [e2, hn]; exact Nat.le_succ _, fun o ho => ?_⟩
    rw [hn] at ho
    have hne := Nat.ne_of_lt ho
    rw [hF']
    cases o with
    | ty a => exact (upd_ne _ _ hne).symm
    | fm a => exact (upd_ne _ _ hne).symm
    | am a => exact (upd_ne _ _ hne).symm
    | em a => exact (upd_ne _ _ hne).symm
    | xm a => exact (upd_ne _ _ hne).symm
    | tm a =>
      show G.tm a = (if hasP = true then upd G.tm n ⟨ps', po⟩ else G.tm) a
      split
      · exact (upd_ne _ _ hne).symm
      · rfl
    | xo a =>
      show G.xo a = ((h.xml.map fun x => upd G.xo n x).getD G.xo) a
      cases h.xml with
      | none => rfl
      | some x => exact (upd_ne _ _ hne).symm
    | ex a =>
      show G.ex a = ((h.example.map fun x => upd G.ex n x).getD G.ex) a
      cases h.example with
      | none => rfl
      | some x => exact (upd_ne _ _ hne).symm
    | sm a => rfl
    | um a => rfl
    | api a => rfl
    | lib a => rfl
  have hHF : Extends H F.2 := x1.trans hGF
  have hlo : lo ≤ n := Nat.le_trans hp.le (by rw [← hn]; exact x1.next)
  have hlt : n < F.2.next := by rw [e2]; exact Nat.lt_succ_self _
  have fa : ∀ e ∈ fs', F.2.Above lo (.tm e.2) := fun e he => (hp.fa e he).ext hHF
  have pa : ∀ e ∈ ps', F.2.Above lo (.ty e.2) := fun e he => (hp.pa e he).ext hHF
  have ia : ∀ a ∈ it', F.2.Above lo (.ty a) := fun e he => (hp.ia e he).ext hHF
  have xa : ∀ e ∈ xs, F.2.Above lo (.ex e.2) := by
    intro e he
    obtain ⟨y1, y2⟩ := x2 e he
    refine above_leaf (Nat.le_trans hp.le y1) ?_ rfl
    exact Nat.lt_of_lt_of_le y2 hGF.next
  have refs : ∀ o ∈ F.2.refs (.ty n), F.2.Above lo o := by
    intro o ho
    simp only [Heap.refs, ety, List.mem_append, List.mem_cons, List.not_mem_nil, or_false,
      List.mem_map, Option.mem_toList] at ho
    rcases ho with ((((rfl | rfl | rfl | rfl) | ⟨x, hx, rfl⟩) | ⟨x, hx, rfl⟩) | ⟨m, hm, rfl⟩) |
      ⟨t, ht, rfl⟩
    · exact above_leaf hlo hlt rfl
    · exact above_leaf hlo hlt rfl
    · refine above_of_refs hlo hlt fun o ho => ?_
      simp only [Heap.refs, eem, List.mem_map] at ho
      obtain ⟨e, he, rfl⟩ := ho
      exact xa e he
    · refine above_of_refs hlo hlt fun o ho => ?_
      simp only [Heap.refs, efm, List.mem_map] at ho
      obtain ⟨e, he, rfl⟩ := ho
      exact fa e he
    · obtain ⟨y, -, rfl⟩ := Option.map_eq_some_iff.mp hx
      exact above_leaf hlo hlt rfl
    · obtain ⟨y, -, rfl⟩ := Option.map_eq_some_iff.mp hx
      exact above_leaf hlo hlt rfl
    · cases hh : hasP with
      | false => rw [hh] at hm; cases hm
      | true =>
        rw [hh] at hm
        cases hm
        refine above_of_refs hlo hlt fun o ho => ?_
        simp only [Heap.refs, etm hh, List.mem_map] at ho
        obtain ⟨e, he, rfl⟩ := ho
        exact pa e he
    · exact ia t ht
  rw [e1]
  refine ⟨hHF, above_of_refs hlo hlt refs, ?_, ?_⟩
  · obtain ⟨n1, f1⟩ := hp.fv
    obtain ⟨n2, f2⟩ := hp.pv
    obtain ⟨n3, f3⟩ := hp.iv
    let N := max n1 (max n2 n3)
    have g1 : (fs'.mapM fun e => (followMap (F.2.val N) (F.2.tm e.2)).map fun y => (e.1, y)) =
        some fs := by
      rw [facetsExt hp.fa hHF]
      exact facetsMono (Nat.le_max_left _ _) f1
    have g2 : (ps'.mapM fun e => (F.2.val N e.2).map fun y => (e.1, y)) = some ps := by
      rw [listExt hp.pa hHF]
      exact listMono (Nat.le_trans (Nat.le_max_left _ _) (Nat.le_max_right _ _)) f2
    have g3 : followOpt (F.2.val N) it' = some it := by
      cases it' with
      | none => exact f3
      | some a =>
        obtain ⟨t, ht, rfl⟩ := Option.map_eq_some_iff.mp f3
        show (F.2.val N a).map some = _
        rw [valExt (hp.ia a rfl) hHF,
          val_mono (Nat.le_trans (Nat.le_max_right _ _) (Nat.le_max_right _ _)) ht]
        rfl
    refine ⟨N + 1, ?_⟩
    show F.2.view (F.2.val N) n = _
    unfold Heap.view
    rw [ety]
    have k1 : followMap (fun m => followMap (F.2.val N) (F.2.tm m)) (F.2.fm n) =
        some ⟨fs, fo⟩ := by
      rw [efm]
      show Option.map _ (fs'.mapM _) = _
      rw [g1]; rfl
    have k2 : F.2.propsView (F.2.val N) (if hasP = true then some n else none) =
        some ⟨ps, po⟩ := by
      cases hh : hasP with
      | true =>
        show followMap (F.2.val N) (F.2.tm n) = _
        rw [etm hh]
        show Option.map _ (ps'.mapM _) = _
        rw [g2]; rfl
      | false =>
        rw [hh] at hP
        simp only [Bool.or_eq_false_iff, Bool.not_eq_false', List.isEmpty_iff] at hP
        obtain ⟨⟨-, rfl⟩, rfl⟩ := hP
        cases g2
        rfl
    have k3 : F.2.hdr h ⟨n, n, h.xml.map fun _ => n, h.example.map fun _ => n, n⟩ = h := by
      have : xs.map (fun e => (e.1, F.2.ex e.2)) = h.examples.ents := by
        rw [← x3]
        apply List.map_congr_left
        intro e he
        have : Same G F.2 (.ex e.2) := hGF.same _ (x2 e he).2
        rw [show G.ex e.2 = F.2.ex e.2 from this]
      unfold Heap.hdr
      simp only [exm, eam, eem, exo, eex, this]
    simp only [k1, k2, k3, g3, Option.bind_some, Option.map_some]
  · intro hw
    refine closed_of (x4 hw) hGF.next fun o => ?_
    by_cases ho : o.addr = n
    · cases o with
      | ty a => rw [show a = n from ho]; exact Or.inr fun o' ho' => (refs o' ho').self.2
      | em a =>
        rw [show a = n from ho]
        refine Or.inr fun o' ho' => ?_
        simp only [Heap.refs, eem, List.mem_map] at ho'
        obtain ⟨e, he, rfl⟩ := ho'
        exact (xa e he).self.2
      | fm a =>
        rw [show a = n from ho]
        refine Or.inr fun o' ho' => ?_
        simp only [Heap.refs, efm, List.mem_map] at ho'
        obtain ⟨e, he, rfl⟩ := ho'
        exact (fa e he).self.2
      | tm a =>
        rw [show a = n from ho]
        cases hh : hasP with
        | true =>
          refine Or.inr fun o' ho' => ?_
          simp only [Heap.refs, etm hh, List.mem_map] at ho'
          obtain ⟨e, he, rfl⟩ := ho'
          exact (pa e he).self.2
        | false => rw [hF', hh]; exact Or.inl rfl
      | api a => rw [hF']; exact Or.inl rfl
      | lib a => rw [hF']; exact Or.inl rfl
      | _ => exact Or.inl rfl
    · left
      rw [hF']
      cases o with
      | ty a =>
        show Heap.refs _ (.ty a) = _
        simp only [Heap.refs, upd_ne _ _ (show a ≠ n from ho)]
      | em a => simp only [Heap.refs, upd_ne _ _ (show a ≠ n from ho)]
      | fm a => simp only [Heap.refs, upd_ne _ _ (show a ≠ n from ho)]
      | tm a =>
        cases hasP with
        | true => simp only [Heap.refs, if_true, upd_ne _ _ (show a ≠ n from ho)]
        | false => rfl
      | _ => rfl

mutual

theorem storeT_ok : ∀ (t : DT) (H : Heap), StoredT H t (H.storeT t)
  | .basic i s x, H => by
    rw [Heap.storeT]
    have he : Extends H { H with
        next := H.next + 1
        ty := upd H.ty H.next (.basic i s H.next)
        xm := upd H.xm H.next x } := by
      refine ⟨Nat.le_succ _, fun o ho => ?_⟩
      cases o with
      | ty a => exact (upd_ne _ _ (Nat.ne_of_lt ho)).symm
      | xm a => exact (upd_ne _ _ (Nat.ne_of_lt ho)).symm
      | _ => rfl
    refine ⟨he, ?_, ⟨1, ?_⟩, fun hw => ?_⟩
    · refine above_of_refs (Nat.le_refl _) (Nat.lt_succ_self _) fun o ho => ?_
      simp only [Heap.refs, upd_self, List.mem_singleton] at ho
      subst ho
      exact above_leaf (Nat.le_refl _) (Nat.lt_succ_self _) rfl
    · show Heap.view _ _ _ = _
      simp only [Heap.view, upd_self]
    · refine closed_of hw (Nat.le_succ _) fun o => ?_
      cases o with
      | ty a =>
        by_cases ha : a = H.next
        · subst ha
          refine Or.inr fun o ho => ?_
          simp only [Heap.refs, upd_self, List.mem_singleton] at ho
          subst ho
          exact Nat.lt_succ_self _
        · left
          simp only [Heap.refs, upd_ne _ _ ha]
      | _ => exact Or.inl rfl
  | .ext h b ⟨fs, fo⟩ ⟨ps, po⟩ it, H => by
    have r1 := storeFL_ok fs H
    have r2 := storeL_ok ps (H.storeFL fs).2
    have r3 := storeI_ok it (Heap.storeL ps (H.storeFL fs).2).2
    rw [Heap.storeT, Heap.storeF, Heap.storeM]
    generalize H.storeFL fs = q1 at *
    generalize Heap.storeL ps q1.2 = q2 at *
    generalize Heap.storeI it q2.2 = q3 at *
    have h12 := r1.ext
    have h23 := r2.ext
    have h34 := r3.1
    obtain ⟨n1, v1⟩ := r1.val
    obtain ⟨n2, v2⟩ := r2.val
    have hp : Parts H.next q3.2 fs ps it q1.1 q2.1 q3.1 := by
      refine ⟨(h12.trans (h23.trans h34)).next, ?_, ?_, ?_, ⟨n1, ?_⟩, ⟨n2, ?_⟩, r3.2.2.1⟩
      · exact fun e he => (r1.above e he).ext (h23.trans h34)
      · exact fun e he => ((r2.above e he).ext h34).mono h12.next
      · exact fun a ha => (r3.2.1 a ha).mono (Nat.le_trans h12.next h23.next)
      · rw [facetsExt r1.above (h23.trans h34)]; exact v1
      · rw [listExt r2.above h34]; exact v2
    obtain ⟨s1, s2, s3, s4⟩ := storeExt_ok (h := h) (b := b) (fo := fo) (po := po) hp
    exact ⟨h12.trans (h23.trans (h34.trans s1)), s2, s3,
      fun hw => s4 (r3.2.2.2 (r2.closed (r1.closed hw)))⟩

theorem storeI_ok : ∀ (it : Option DT) (H : Heap), Extends H (H.storeI it).2 ∧
    (∀ a ∈ (H.storeI it).1, (H.storeI it).2.Above H.next (.ty a)) ∧
    (∃ n, followOpt ((H.storeI it).2.val n) (H.storeI it).1 = some it) ∧
    (H.Closed → (H.storeI it).2.Closed)
  | none, H => by
    rw [Heap.storeI]
    exact ⟨.refl H, fun a ha => (by cases ha), ⟨0, rfl⟩, id⟩
  | some t, H => by
    have r := storeT_ok t H
    rw [Heap.storeI]
    obtain ⟨n, hn⟩ := r.val
    refine ⟨r.ext, fun a ha => ?_, ⟨n, ?_⟩, r.closed⟩
    · cases ha; exact r.above
    · show (Heap.val _ n _).map some = _
      rw [hn]; rfl

theorem storeL_ok : ∀ (es : List (String × DT)) (H : Heap), StoredL H es (H.storeL es)
  | [], H => by
    rw [Heap.storeL]
    exact ⟨.refl H, fun e he => (by cases he), ⟨0, rfl⟩, id⟩
  | (k, t) :: es, H => by
    have r := storeT_ok t H
    have q := storeL_ok es (H.storeT t).2
    rw [Heap.storeL, Heap.storeE]
    generalize H.storeT t = r1 at *
    generalize Heap.storeL es r1.2 = q1 at *
    obtain ⟨n, hn⟩ := r.val
    obtain ⟨m, hm⟩ := q.val
    refine ⟨r.ext.trans q.ext, fun e he => ?_, ⟨max n m, ?_⟩, fun hw => q.closed (r.closed hw)⟩
    · rcases List.mem_cons.mp he with rfl | he
      · exact r.above.ext q.ext
      · exact (q.above e he).mono r.ext.next
    · simp only
      rw [List.mapM_cons]
      simp only [valExt r.above q.ext, val_mono (Nat.le_max_left n m) hn,
        listMono (Nat.le_max_right n m) hm]
      rfl

theorem storeFL_ok : ∀ (es : List (String × OM String DT)) (H : Heap),
    StoredFL H es (H.storeFL es)
  | [], H => by
    rw [Heap.storeFL]
    exact ⟨.refl H, fun e he => (by cases he), ⟨0, rfl⟩, id⟩
  | (k, ⟨ts, o⟩) :: es, H => by
    have r := storeL_ok ts H
    have q := storeFL_ok es { (H.storeL ts).2 with
      tm := upd (H.storeL ts).2.tm (H.storeL ts).2.next ⟨(H.storeL ts).1, o⟩
      next := (H.storeL ts).2.next + 1 }
    rw [Heap.storeFL, Heap.storeFE, Heap.storeM]
    generalize H.storeL ts = r1 at *
    have hF : Extends r1.2 { r1.2 with
        tm := upd r1.2.tm r1.2.next ⟨r1.1, o⟩, next := r1.2.next + 1 } := by
      refine ⟨Nat.le_succ _, fun o ho => ?_⟩
      cases o with
      | tm a => exact (upd_ne _ _ (Nat.ne_of_lt ho)).symm
      | _ => rfl
    have hc : r1.2.Closed → Heap.Closed { r1.2 with
        tm := upd r1.2.tm r1.2.next ⟨r1.1, o⟩, next := r1.2.next + 1 } := by
      intro hw
      refine closed_of hw hF.next fun o => ?_
      cases o with
      | tm a =>
        by_cases ha : a = r1.2.next
        · subst ha
          refine Or.inr fun o ho => ?_
          simp only [Heap.refs, upd_self, List.mem_map] at ho
          obtain ⟨e, he, rfl⟩ := ho
          exact Nat.lt_of_lt_of_le (r.above e he).self.2 (Nat.le_succ _)
        · left
          simp only [Heap.refs, upd_ne _ _ ha]
      | _ => exact Or.inl rfl
    obtain ⟨n, hn⟩ := r.val
    have ha : Heap.Above { r1.2 with
        tm := upd r1.2.tm r1.2.next ⟨r1.1, o⟩, next := r1.2.next + 1 } H.next
        (.tm r1.2.next) := by
      refine above_of_refs r.ext.next (Nat.lt_succ_self _) fun o ho => ?_
      simp only [Heap.refs, upd_self, List.mem_map] at ho
      obtain ⟨e, he, rfl⟩ := ho
      exact (r.above e he).ext hF
    have hv : followMap (Heap.val { r1.2 with
        tm := upd r1.2.tm r1.2.next ⟨r1.1, o⟩, next := r1.2.next + 1 } n)
        (upd r1.2.tm r1.2.next ⟨r1.1, o⟩ r1.2.next) = some ⟨ts, o⟩ := by
      rw [upd_self]
      show Option.map _ (r1.1.mapM _) = _
      rw [listExt r.above hF, hn]; rfl
    generalize hn' : r1.2.next = n' at *
    generalize hG : ({ r1.2 with
        tm := upd r1.2.tm n' ⟨r1.1, o⟩, next := n' + 1 } : Heap) = G at *
    have hv : followMap (G.val n) (G.tm n') = some ⟨ts, o⟩ := by rw [← hG] at hv ⊢; exact hv
    generalize Heap.storeFL es G = q1 at *
    obtain ⟨m, hm⟩ := q.val
    refine ⟨r.ext.trans (hF.trans q.ext), fun e he => ?_, ⟨max n m, ?_⟩,
      fun hw => q.closed (hc (r.closed hw))⟩
    · rcases List.mem_cons.mp he with rfl | he
      · exact ha.ext q.ext
      · exact (q.above e he).mono (Nat.le_trans r.ext.next hF.next)
    · simp only
      rw [List.mapM_cons]
      simp only [mapExt ha q.ext, mapMono (Nat.le_max_left n m) hv,
        facetsMono (Nat.le_max_right n m) hm]
      rfl

end

end Verif.Doc
