import Verif.Doc.HeapTypeStep
import Verif.Doc.HeapParts

/-! # Lemmas: every step on a data type is the step on its value -/

namespace Verif.Doc
open Relation

/-! ### Getters -/

/-- The kind of object that a getter returns. -/
def TypeSec.mk : TypeSec → Addr → Obj
  | .extra => .xm
  | .annotations => .am
  | .examples => .em
  | .facets => .fm
  | .properties => .tm
  | .xml => .xo
  | .example => .ex
  | .items => .ty

theorem getMap_some {H : Heap} {a m : Addr} {s : TypeSec} (h : H.getMap a s = some m) :
    H.get a s = some (s.mk m) := by
  obtain ⟨o, ho, rfl⟩ := Option.map_eq_some_iff.mp h
  rw [ho]
  cases hty : H.ty a with
  | basic i x y => cases s <;> simp only [Heap.get, hty] at ho <;> cases ho; rfl
  | ext c p b f ps it =>
    cases s
    case properties =>
      cases b <;> simp only [Heap.get, hty] at ho <;> try (cases ho; done)
      obtain ⟨y, _, rfl⟩ := Option.map_eq_some_iff.mp ho; rfl
    case items =>
      cases b <;> simp only [Heap.get, hty] at ho <;> try (cases ho; done)
      obtain ⟨y, _, rfl⟩ := Option.map_eq_some_iff.mp ho; rfl
    case xml =>
      simp only [Heap.get, hty] at ho
      obtain ⟨y, _, rfl⟩ := Option.map_eq_some_iff.mp ho; rfl
    case «example» =>
      simp only [Heap.get, hty] at ho
      obtain ⟨y, _, rfl⟩ := Option.map_eq_some_iff.mp ho; rfl
    all_goals simp only [Heap.get, hty] at ho; cases ho; rfl

theorem getMap_none {H : Heap} {a : Addr} {s : TypeSec} (h : H.getMap a s = none) :
    H.get a s = none := Option.map_eq_none_iff.mp h

theorem part_none {H : Heap} {n : Nat} {a : Addr} {t : DT} (hv : H.val n a = some t)
    (hso : (H.ty a).Sound) {s : TypeSec} (h : H.get a s = none) : t.part s = none := by
  cases hty : H.ty a with
  | basic i x y =>
    have ht : t = .basic i x (H.xm y) := by
      cases n with
      | zero => cases hv
      | succ n => simp only [Heap.val, Heap.view, hty] at hv; exact (Option.some.inj hv).symm
    subst ht
    cases s <;> simp only [Heap.get, hty] at h <;> first | rfl | cases h
  | ext c p b f ps it =>
    obtain ⟨fs, ps', it', rfl, hf, hps, hit⟩ := val_parts hv hty
    rw [hty] at hso
    cases s
    case properties =>
      cases b <;> first | rfl | skip
      simp only [Heap.get, hty, Option.map_eq_none_iff] at h
      exact absurd h (hso rfl)
    case items =>
      cases b <;> first | rfl | skip
      simp only [Heap.get, hty, Option.map_eq_none_iff] at h
      subst h
      cases hit
      rfl
    case xml =>
      simp only [Heap.get, hty, Option.map_eq_none_iff] at h
      simp only [DT.part, exMap_hdr, h, Option.map_none]
    case «example» =>
      simp only [Heap.get, hty, Option.map_eq_none_iff] at h
      simp only [DT.part, exMap_hdr, h, Option.map_none]
    all_goals simp only [Heap.get, hty] at h; cases h

theorem val_kind {H : Heap} {n : Nat} {a : Addr} {t : DT} (hv : H.val n a = some t) :
    (H.ty a).kind = t.kind := by
  cases hty : H.ty a with
  | basic i x y =>
    have ht : t = .basic i x (H.xm y) := by
      cases n with
      | zero => cases hv
      | succ n => simp only [Heap.val, Heap.view, hty] at hv; exact (Option.some.inj hv).symm
    subst ht
    cases i <;> rfl
  | ext c p b f ps it =>
    obtain ⟨fs, ps', it', rfl, hf, hps, hit⟩ := val_parts hv hty
    rfl

/-! ### What a step does beside the value -/

/-- Legal calls that change objects below `o` only, and keep trees. -/
structure Moves (X : Xyml) (H : Heap) (o : Obj) (as : List Act) : Prop where
  legal : H.LegalAll X as
  sprouts : Sprouts H (H.run X as)
  only : ∃ T, Only T H (H.run X as) ∧ ∀ x ∈ T, H.Reaches o x

theorem moves_nil (X : Xyml) {H : Heap} (hw : H.Closed) (o : Obj) : Moves X H o [] :=
  ⟨trivial, .refl hw, [], .refl [] H, fun _ h => by cases h⟩

theorem moves_one {X : Xyml} {H : Heap} {o : Obj} {s : Act} (hl : H.Legal s)
    (hs : Sprouts H (H.act X s)) (ht : ∀ x ∈ H.touches s, H.Reaches o x) : Moves X H o [s] :=
  ⟨⟨hl, trivial⟩, hs, H.touches s, (quiet_act X hl).only, ht⟩

theorem Moves.up {X : Xyml} {H : Heap} {o o' : Obj} {as : List Act} (h : Moves X H o as)
    (hr : H.Reaches o' o) : Moves X H o' as :=
  ⟨h.legal, h.sprouts, by
    obtain ⟨T, hq, hT⟩ := h.only
    exact ⟨T, hq, fun x hx => hr.trans (hT x hx)⟩⟩

/-- The object is a tree and stands for the value. -/
structure TreeSim (X : Xyml) (a : Addr) (H : Heap) (t : DT) : Prop where
  reach : Reachable X H
  lt : a < H.next
  tree : H.Tree (.ty a)
  val : ∃ n, H.val n a = some t

theorem TreeSim.sim {X : Xyml} {a : Addr} {H : Heap} {t : DT} (h : TreeSim X a H t) :
    TypeSim a H t := ⟨h.reach.closed, h.lt, h.tree.ownMaps, h.reach.sound a, h.val⟩

theorem TreeSim.closed {X : Xyml} {a : Addr} {H : Heap} {t : DT} (h : TreeSim X a H t) : H.Closed :=
  h.reach.closed

/-- The step changes the value as it should. -/
structure StepOk (X : Xyml) (H : Heap) (a : Addr) (as : List Act) (t' : DT) : Prop where
  moves : Moves X H (.ty a) as
  val : ∃ n, (H.run X as).val n a = some t'

section steps
variable {X : Xyml} {a : Addr} {H : Heap} {t : DT}

theorem ok_nil (h : TreeSim X a H t) {t' : DT} (e : t' = t) : StepOk X H a [] t' :=
  ⟨moves_nil X h.closed _, e ▸ h.val⟩

theorem only_one {o : Obj} {T : List Obj} (hT : T = [o]) {p : Obj} (hr : H.Reaches p o) :
    ∀ x ∈ T, H.Reaches p x := by
  subst hT
  intro x hx
  rw [List.mem_singleton.mp hx]
  exact hr

/-- An edit of a part. -/
theorem ok_edit {e : MapEdit} {o : Obj} (ht : H.touches (.edit e) = [o])
    (hr : H.Reaches (.ty a) o) (hl : H.Legal (.edit e)) (hs : Sprouts H (H.edit e)) {t' : DT}
    (hv : ∃ n, (H.edit e).val n a = some t') : StepOk X H a [.edit e] t' :=
  ⟨moves_one hl hs (only_one ht hr), hv⟩

theorem ok_call (h : TreeSim X a H t) (op : TypeOp) :
    StepOk X H a [.onType a (.plain op)] (if op.plain then (t.apply op).getD t else t) := by
  obtain ⟨n, hn⟩ := h.val
  have hrun : H.run X [.onType a (.plain op)] = (H.typeCall a (.plain op)).getD H := rfl
  refine ⟨moves_one ⟨h.lt, trivial⟩ ?_ (only_one rfl .refl), ?_⟩
  · show Sprouts H ((H.typeCall a (.plain op)).getD H)
    cases hc : H.typeCall a (.plain op) with
    | none => exact .refl h.closed
    | some H' => exact sprouts_plain h.closed hc
  · rw [hrun]
    split
    · rename_i hp
      obtain ⟨h1, h2⟩ := plain_exact h.closed hn hp
      cases hc : H.typeCall a (.plain op) with
      | none => rw [h2 hc]; exact ⟨n, hn⟩
      | some H' =>
        obtain ⟨t', ht, hv⟩ := h1 H' hc
        rw [ht]
        exact ⟨n + 1, hv⟩
    · rename_i hp
      have : H.typeCall a (.plain op) = none := by
        simp only [Heap.typeCall]
        rw [if_neg hp]
      rw [this]
      exact ⟨n, hn⟩

/-- The setter call without a pointer. -/
def TypeSec.clearOp : TypeSec → TypeOp
  | .extra => .setExtraFacets none
  | .annotations => .setAnnotations none
  | .examples => .setExamples none
  | .facets => .setFacetDefinitions none
  | .properties => .setProperties none
  | .xml => .setXML none
  | .example => .setExample none
  | .items => .setItems none

theorem clear_value (H : Heap) (n : Nat) (t : DT) (s : TypeSec) :
    s.clear.deref H n = some s.clearOp ∧ (∀ t', t.apply s.clearOp = some t' → t' = t.cleared s) ∧
      (t.apply s.clearOp = none → t.cleared s = t) := by
  refine ⟨by cases s <;> rfl, fun t' h => ?_, fun h => ?_⟩
  · cases t with
    | basic => cases s <;> cases h
    | ext c b fs ps it => cases s <;> cases b <;> cases h <;> rfl
  · cases t with
    | basic => cases s <;> rfl
    | ext c b fs ps it => cases s <;> cases b <;> first | (cases h; done) | rfl

theorem ok_unset (h : TreeSim X a H t) (s : TypeSec) :
    StepOk X H a [.onType a (.ptr s.clear)] (t.cleared s) := by
  obtain ⟨n, hn⟩ := h.val
  have hl : H.Legal (.onType a (.ptr s.clear)) := by
    cases s <;> exact ⟨h.lt, fun _ q => by cases q⟩
  have hk : H.Keeps (.onType a (.ptr s.clear)) := by cases s <;> rfl
  refine ⟨moves_one hl ?_ (only_one rfl .refl), ?_⟩
  · show Sprouts H ((H.setPtr a s.clear).getD H)
    cases hc : H.setPtr a s.clear with
    | none => exact .refl h.closed
    | some H' => exact sprouts_unset h.closed hl hk hc
  · have ha : ∀ o ∈ s.clear.arg, ¬ H.Reaches o (.ty a) := by
      cases s <;> exact fun o ho => by cases ho
    obtain ⟨ho, h3, h4⟩ := clear_value H n t s
    obtain ⟨h1, h2⟩ := ptr_exact h.closed hn hl ha ho
    show ∃ m, ((H.typeCall a (.ptr s.clear)).getD H).val m a = some (t.cleared s)
    cases hc : H.typeCall a (.ptr s.clear) with
    | none => exact ⟨n, by rw [h4 (h2 hc)]; exact hn⟩
    | some H' =>
      obtain ⟨t', ht, hv⟩ := h1 H' hc
      exact ⟨n + 1, by rw [← h3 t' ht]; exact hv⟩

theorem ok_load (h : TreeSim X a H t) (v : Node) :
    StepOk X H a [.loadType a v] (t.load X v).1 := by
  refine ⟨moves_one (s := .loadType a v) h.lt (sprouts_typeLoad X v h.closed h.lt)
    fun x hx => ?_, (typeLoad_sim X v h.sim).1.val⟩
  rcases List.mem_cons.mp hx with rfl | hx
  · exact .refl
  · exact .single (maps_points hx)

theorem ok_extra (h : TreeSim X a H t) (f : OM Scalar Node → OM Scalar Node) :
    StepOk X H a (TypeStep.acts X H a (.extra f)) (t.alter X (.extra f)) := by
  obtain ⟨n, hn⟩ := h.val
  simp only [TypeStep.acts]
  cases hg : H.getMap a .extra with
  | none =>
    have := part_none hn (h.reach.sound a) (getMap_none hg)
    cases t <;> cases this
  | some m =>
    have hg := getMap_some hg
    have hp := get_points hg
    refine ok_edit (e := .xm m f) (o := .xm m) rfl (.single hp) (h.closed _ _ hp)
      (sprouts_refs h.closed rfl fun o => by cases o <;> rfl) ?_
    obtain ⟨t', ht, hv⟩ := edit_extra_exact h.closed hn hg (h.tree.owned hp) f
    refine ⟨n + 1, hv.trans ?_⟩
    cases t <;> cases ht <;> rfl

theorem ok_anns (h : TreeSim X a H t) (f : OM String Ann → OM String Ann) :
    StepOk X H a (TypeStep.acts X H a (.anns f)) (t.alter X (.anns f)) := by
  obtain ⟨n, hn⟩ := h.val
  simp only [TypeStep.acts]
  cases hg : H.getMap a .annotations with
  | none =>
    have := part_none hn (h.reach.sound a) (getMap_none hg)
    refine ok_nil h ?_
    cases t with
    | basic => rfl
    | ext => cases this
  | some m =>
    have hg := getMap_some hg
    have hp := get_points hg
    refine ok_edit (e := .am m f) (o := .am m) rfl (.single hp) (h.closed _ _ hp)
      (sprouts_refs h.closed rfl fun o => by cases o <;> rfl) ?_
    obtain ⟨t', ht, hv⟩ := edit_annotations_exact h.closed hn hg (h.tree.owned hp) f
    refine ⟨n + 1, hv.trans ?_⟩
    cases t <;> cases ht <;> rfl

/-- XML settings that change. -/
theorem val_xml (h : TreeSim X a H t) {x : Addr} (hg : H.get a .xml = some (.xo x)) (g : XML → XML) :
    ∃ n, ({ H with xo := upd H.xo x (g (H.xo x)) } : Heap).val n a =
      some (t.editHdr fun c => { c with xml := c.xml.map g }) := by
  obtain ⟨n, hn⟩ := h.val
  obtain ⟨t', ht, hv⟩ := xo_exact h.closed hn hg (h.tree.owned (get_points hg)) (g (H.xo x))
  refine ⟨n + 1, hv.trans ?_⟩
  have := val_part (val_mono (Nat.le_succ n) hn) hg
  cases t with
  | basic => cases ht
  | ext c b fs ps it =>
    simp only [DT.part, Heap.partVal] at this
    obtain ⟨y, hy, e⟩ := Option.map_eq_some_iff.mp this
    cases e
    cases ht
    simp only [DT.editHdr, hy, Option.map_some]

/-- An example that changes. -/
theorem val_example (h : TreeSim X a H t) {x : Addr} (hg : H.get a .example = some (.ex x))
    (g : Example → Example) :
    ∃ n, ({ H with ex := upd H.ex x (g (H.ex x)) } : Heap).val n a =
      some (t.editHdr fun c => { c with «example» := c.example.map g }) := by
  obtain ⟨n, hn⟩ := h.val
  obtain ⟨t', ht, hv⟩ := ex_exact h.closed hn hg (h.tree.owned (get_points hg)) (g (H.ex x))
  refine ⟨n + 1, hv.trans ?_⟩
  have := val_part (val_mono (Nat.le_succ n) hn) hg
  cases t with
  | basic => cases ht
  | ext c b fs ps it =>
    simp only [DT.part, Heap.partVal] at this
    obtain ⟨y, hy, e⟩ := Option.map_eq_some_iff.mp this
    cases e
    cases ht
    simp only [DT.editHdr, hy, Option.map_some]

theorem exMap_follow (H : Heap) (m : Addr) :
    followMap (fun x => some (H.ex x)) (H.em m) = some (H.exMap m) := by
  rw [followMap_some]
  refine ⟨?_, rfl⟩
  unfold Heap.exMap
  dsimp only
  generalize (H.em m).ents = es
  induction es with
  | nil => exact .nil
  | cons e es ih => exact .cons ⟨rfl, rfl⟩ ih

/-- One of the examples changes. -/
theorem val_exampleAt (h : TreeSim X a H t) {m x : Addr} {k : String}
    (hg : H.get a .examples = some (.em m)) (hx : (H.em m).get k = some x) (g : Example → Example) :
    ∃ n, ({ H with ex := upd H.ex x (g (H.ex x)) } : Heap).val n a =
      some (t.editHdr fun c => { c with examples := c.examples.change k g }) := by
  obtain ⟨n, hn⟩ := h.val
  obtain ⟨e, he, hex⟩ := get_mem hx
  have hpx : H.Points (.em m) (.ex x) := by
    rw [← hex]; exact List.mem_map.mpr ⟨e, he, rfl⟩
  have hq : Only [.ex x] H { H with ex := upd H.ex x (g (H.ex x)) } := (quiet_ex H x).only
  obtain ⟨h1, h2⟩ := part_examples h.closed h.tree hn h.lt hg hq (only_one rfl (.single hpx))
  refine ⟨n + 1, h2.trans ?_⟩
  rw [h1 fun y => y.change k g]
  have hnd : ((H.em m).ents.map Prod.snd).Nodup := by
    have := (h.tree.sub (.single (get_points hg))).nodup _ .refl
    simp only [Heap.refs] at this
    refine List.Nodup.of_map Obj.ex ?_
    rw [List.map_map]
    exact this
  have := change_get (r' := fun y => some (upd H.ex x (g (H.ex x)) y)) (exMap_follow H m) hx hnd
    (g := g) rfl (by rw [upd_self]) fun y _ hy => by rw [upd_ne _ _ hy]
  rw [← Option.some.inj ((exMap_follow { H with ex := upd H.ex x (g (H.ex x)) } m).symm.trans this)]

theorem sprouts_newXML {h : Hdr} {p : TypePtrs} {b : Body} {f : Addr} {ps it : Option Addr}
    (hw : H.Closed) (ha : a < H.next) (hty : H.ty a = .ext h p b f ps it) (x : XML)
    (hc : ((H.storeXo x).setTy a (.ext h { p with xml := some H.next } b f ps it)).Closed) :
    Sprouts H ((H.storeXo x).setTy a (.ext h { p with xml := some H.next } b f ps it)) := by
  refine sprouts_setTy hw (extends_storeXo H x) hc ha (above_xo H x) (tree_leaf rfl) fun y hy => ?_
  rw [mem_refs_ext (upd_self _ _ _)] at hy
  rw [mem_refs_ext hty]
  rcases hy with (((hy | ⟨_, hx, rfl⟩) | hy) | hy) | hy
  · exact Or.inl (Or.inl (Or.inl (Or.inl (Or.inl hy))))
  · rw [← Option.some.inj hx]; exact Or.inr rfl
  · exact Or.inl (Or.inl (Or.inl (Or.inr hy)))
  · exact Or.inl (Or.inl (Or.inr hy))
  · exact Or.inl (Or.inr hy)

/-- Two calls, the second on the data type with what the first created. -/
theorem moves_pair {H1 : Heap} {s1 : Act} {op : PtrOp} (hl1 : H.Legal s1)
    (ht1 : H.touches s1 = []) (h1 : H.act X s1 = H1) (hl2 : H1.Legal (.onType a (.ptr op)))
    (hs : Sprouts H ((H1.setPtr a op).getD H1)) :
    Moves X H (.ty a) [s1, .onType a (.ptr op)] := by
  have hrun : H.run X [s1, .onType a (.ptr op)] = (H1.setPtr a op).getD H1 := by
    simp only [Heap.run, List.foldl_cons, List.foldl_nil, h1]; rfl
  have hl : H.LegalAll X [s1, .onType a (.ptr op)] := ⟨hl1, by rw [h1]; exact hl2, trivial⟩
  refine ⟨hl, by rw [hrun]; exact hs, _, (quiet_run hl).only, fun x hx => ?_⟩
  simp only [Heap.touchesAll, ht1, List.nil_append, List.append_nil] at hx
  rw [List.mem_singleton.mp hx]
  exact .refl

theorem ok_newXML (h : TreeSim X a H t) :
    StepOk X H a (TypeStep.acts X H a .newXML) (t.alter X .newXML) := by
  have hl2 : (H.storeXo XML.new).Legal (.onType a (.ptr (.setXML (some H.next)))) :=
    ⟨Nat.lt_succ_of_lt h.lt, fun _ q => by cases q; exact Nat.lt_succ_self _⟩
  have hrun : H.run X (TypeStep.acts X H a .newXML) =
    ((H.storeXo XML.new).setPtr a (.setXML (some H.next))).getD (H.storeXo XML.new) := rfl
  have hty1 : (H.storeXo XML.new).ty a = H.ty a := rfl
  have hs1 := sprouts_ext h.closed (closed_storeXo h.closed XML.new) (extends_storeXo H XML.new)
  cases hty : H.ty a with
  | basic i s x =>
    have hc : (H.storeXo XML.new).setPtr a (.setXML (some H.next)) = none := by
      simp only [Heap.setPtr, hty1, hty]
    refine ⟨moves_pair (H1 := H.storeXo XML.new) trivial rfl rfl hl2 (by rw [hc]; exact hs1), ?_⟩
    rw [hrun, hc]
    obtain ⟨n, hn⟩ := (h.sim.extends (extends_storeXo H XML.new) (closed_storeXo h.closed _)).val
    refine ⟨n, ?_⟩
    obtain ⟨n', hn'⟩ := h.val
    have ht : t = .basic i s (H.xm x) := by
      cases n' with
      | zero => cases hn'
      | succ n' => simp only [Heap.val, Heap.view, hty] at hn'; exact (Option.some.inj hn').symm
    rw [ht] at hn ⊢
    exact hn
  | ext c p b f ps it =>
    have hc : (H.storeXo XML.new).setPtr a (.setXML (some H.next)) =
        some ((H.storeXo XML.new).setTy a (.ext c { p with xml := some H.next } b f ps it)) := by
      simp only [Heap.setPtr, hty1, hty]; rfl
    have hcl := ((quiet_setPtr hl2 hc).closed (closed_storeXo h.closed XML.new))
    refine ⟨moves_pair (H1 := H.storeXo XML.new) trivial rfl rfl hl2 (by
      rw [hc]; exact sprouts_newXML h.closed h.lt hty XML.new hcl), ?_⟩
    rw [hrun, hc]
    refine h.sim.newXML hty XML.new fun fs ps' it' e => ?_
    rw [e]; rfl

theorem ok_newExample (h : TreeSim X a H t) :
    StepOk X H a (TypeStep.acts X H a .newExample) (t.alter X .newExample) := by
  obtain ⟨n', hn'⟩ := h.val
  have hkd := val_kind hn'
  simp only [TypeStep.acts, hkd]
  generalize hE : Example.new t.kind = E
  have h1 : H.act X (.newExample t.kind) = H.storeEx E := by rw [← hE]; rfl
  have hl2 : (H.storeEx E).Legal (.onType a (.ptr (.setExample (some H.next)))) :=
    ⟨Nat.lt_succ_of_lt h.lt, fun _ q => by cases q; exact Nat.lt_succ_self _⟩
  have hrun : H.run X [.newExample t.kind, .onType a (.ptr (.setExample (some H.next)))] =
      ((H.storeEx E).setPtr a (.setExample (some H.next))).getD (H.storeEx E) := by
    rw [← hE]; rfl
  have hty1 : (H.storeEx E).ty a = H.ty a := rfl
  have hs1 := sprouts_ext h.closed (closed_storeEx h.closed E) (extends_storeEx H E)
  cases hty : H.ty a with
  | basic i s x =>
    have hc : (H.storeEx E).setPtr a (.setExample (some H.next)) = none := by
      simp only [Heap.setPtr, hty1, hty]
    refine ⟨moves_pair trivial rfl h1 hl2 (by rw [hc]; exact hs1), ?_⟩
    rw [hrun, hc]
    obtain ⟨n, hn⟩ := (h.sim.extends (extends_storeEx H E) (closed_storeEx h.closed _)).val
    refine ⟨n, ?_⟩
    have ht : t = .basic i s (H.xm x) := by
      cases n' with
      | zero => cases hn'
      | succ n' => simp only [Heap.val, Heap.view, hty] at hn'; exact (Option.some.inj hn').symm
    rw [ht] at hn ⊢
    exact hn
  | ext c p b f ps it =>
    have hc : (H.storeEx E).setPtr a (.setExample (some H.next)) =
        some ((H.storeEx E).setTy a (.ext c { p with «example» := some H.next } b f ps it)) := by
      simp only [Heap.setPtr, hty1, hty]; rfl
    have hcl := ((quiet_setPtr hl2 hc).closed (closed_storeEx h.closed E))
    refine ⟨moves_pair trivial rfl h1 hl2 (by
      rw [hc]; exact sprouts_newExample h.closed h.lt hty E hcl), ?_⟩
    rw [hrun, hc]
    refine h.sim.newExample hty E fun fs ps' it' e => ?_
    subst hE
    rw [e]; rfl

theorem ok_leaf (h : TreeSim X a H t) {s : Act} {o : Obj} (hr : H.Reaches (.ty a) o)
    (hl : H.Legal s) (ht : H.touches s = [o]) (hs : Sprouts H (H.act X s)) {t' : DT}
    (hv : ∃ n, (H.act X s).val n a = some t') : StepOk X H a [s] t' :=
  ⟨moves_one hl hs (only_one ht hr), hv⟩

theorem sprouts_xo (hw : H.Closed) (x : Addr) (y : XML) : Sprouts H { H with xo := upd H.xo x y } :=
  sprouts_refs hw rfl fun o => by cases o <;> rfl

theorem sprouts_ex (hw : H.Closed) (x : Addr) (y : Example) :
    Sprouts H { H with ex := upd H.ex x y } := sprouts_refs hw rfl fun o => by cases o <;> rfl

theorem xml_none (h : TreeSim X a H t) (hg : H.getMap a .xml = none) (g : XML → XML) :
    t.editHdr (fun c => { c with xml := c.xml.map g }) = t := by
  obtain ⟨n, hn⟩ := h.val
  have := part_none hn (h.reach.sound a) (getMap_none hg)
  cases t with
  | basic => rfl
  | ext c b fs ps it =>
    obtain ⟨⟩ := c
    simp only [DT.part, Option.map_eq_none_iff] at this
    subst this
    rfl

theorem example_none (h : TreeSim X a H t) (hg : H.getMap a .example = none)
    (g : Example → Example) :
    t.editHdr (fun c => { c with «example» := c.example.map g }) = t := by
  obtain ⟨n, hn⟩ := h.val
  have := part_none hn (h.reach.sound a) (getMap_none hg)
  cases t with
  | basic => rfl
  | ext c b fs ps it =>
    obtain ⟨⟩ := c
    simp only [DT.part, Option.map_eq_none_iff] at this
    subst this
    rfl

/-- Only extended data types have examples. -/
theorem examples_none (h : TreeSim X a H t) (hg : H.getMap a .examples = none)
    (g : Hdr → Hdr) : t.editHdr g = t := by
  obtain ⟨n, hn⟩ := h.val
  have := part_none hn (h.reach.sound a) (getMap_none hg)
  cases t with
  | basic => rfl
  | ext => cases this

/-- There is no example under the key. -/
theorem exampleAt_none (h : TreeSim X a H t) {k : String} (hx : H.exampleAt a k = none)
    (g : Example → Example) :
    t.editHdr (fun c => { c with examples := c.examples.change k g }) = t := by
  cases hg : H.getMap a .examples with
  | none => exact examples_none h hg _
  | some m =>
    obtain ⟨n, hn⟩ := h.val
    simp only [Heap.exampleAt, hg, Option.bind_some] at hx
    have := val_part (val_mono (Nat.le_succ n) hn) (getMap_some hg)
    cases t with
    | basic => rfl
    | ext c b fs ps it =>
      simp only [DT.part, TypeSec.mk, Heap.partVal] at this
      have e : c.examples = H.exMap m := PartVal.examples.inj (Option.some.inj this)
      have := change_none (exMap_follow H m) hx g
      rw [← e] at this
      simp only [DT.editHdr, this]

theorem exampleAt_some {k : String} {x : Addr} (hx : H.exampleAt a k = some x) :
    ∃ m, H.get a .examples = some (.em m) ∧ (H.em m).get k = some x ∧ H.Points (.em m) (.ex x) := by
  obtain ⟨m, hm, hx⟩ := Option.bind_eq_some_iff.mp hx
  obtain ⟨e, he, rfl⟩ := get_mem hx
  exact ⟨m, getMap_some hm, hx, List.mem_map.mpr ⟨e, he, rfl⟩⟩

end steps

end Verif.Doc
