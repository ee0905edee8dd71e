import Verif.Doc.HeapDocStep

/-! # Lemmas: programs on several documents -/

namespace Verif.Doc
open Relation

/-- The document owns its sections and stands for the value. -/
structure DocSim (x : Holder) (H : Heap) (v : DocVal) : Prop where
  closed : H.Closed
  lt : x.obj.addr < H.next
  own : H.Own x
  val : ∃ n, H.docVal n x = some v

theorem DocSim.api {d : Addr} {H : Heap} {v : DocVal} (h : DocSim (.api d) H v) :
    ∃ s, v = .api s ∧ ApiSim d H s := by
  obtain ⟨n, hn⟩ := h.val
  obtain ⟨s, hs, rfl⟩ := Option.map_eq_some_iff.mp hn
  exact ⟨s, rfl, h.closed, h.lt, h.own, n, hs⟩

theorem DocSim.lib {d : Addr} {H : Heap} {v : DocVal} (h : DocSim (.lib d) H v) :
    ∃ s, v = .lib s ∧ LibSim d H s := by
  obtain ⟨n, hn⟩ := h.val
  obtain ⟨s, hs, rfl⟩ := Option.map_eq_some_iff.mp hn
  exact ⟨s, rfl, h.closed, h.lt, h.own, n, hs⟩

theorem ApiSim.doc {d : Addr} {H : Heap} {s : APISpec} (h : ApiSim d H s) :
    DocSim (.api d) H (.api s) := by
  obtain ⟨n, hn⟩ := h.val
  exact ⟨h.closed, h.lt, h.own, n, by rw [Heap.docVal, hn]; rfl⟩

theorem LibSim.doc {d : Addr} {H : Heap} {s : Library} (h : LibSim d H s) :
    DocSim (.lib d) H (.lib s) := by
  obtain ⟨n, hn⟩ := h.val
  exact ⟨h.closed, h.lt, h.own, n, by rw [Heap.docVal, hn]; rfl⟩

/-- One step on a document. -/
theorem docStep_sim {X : Xyml} {x : Holder} {H : Heap} {v : DocVal} (h : DocSim x H v)
    (st : DocStep) : DocSim x (H.run X (st.acts X H x)) (v.step X st) := by
  cases x with
  | api d =>
    obtain ⟨s, rfl, hs⟩ := h.api
    exact (apiStep_sim hs st).doc
  | lib d =>
    obtain ⟨s, rfl, hs⟩ := h.lib
    exact (libStep_sim hs st).doc

theorem sec_points {H : Heap} {x : Holder} {s : Sec} {o : Obj} (h : H.sec x s = some o) :
    H.Points x.obj o := by
  cases x <;> cases s <;> cases h <;> simp [Heap.Points, Heap.refs, Holder.obj]

/-- What a step on a document leaves. -/
structure StepFacts (X : Xyml) (H : Heap) (x : Holder) (as : List Act) : Prop where
  legal : H.LegalAll X as
  grows : GrowsBy H (H.run X as)
  only : ∃ T, Only T H (H.run X as) ∧ ∀ o ∈ T, H.Reaches x.obj o

theorem stepFacts_nil (X : Xyml) {H : Heap} (hw : H.Closed) (x : Holder) : StepFacts X H x [] :=
  ⟨trivial, .refl hw, [], .refl [] H, fun _ h => by cases h⟩

theorem stepFacts_one {X : Xyml} {H : Heap} (hw : H.Closed) {x : Holder} {s : Act}
    (hl : H.Legal s) (hk : H.Keeps s) (ht : ∀ o ∈ H.touches s, H.Reaches x.obj o) :
    StepFacts X H x [s] :=
  ⟨⟨hl, trivial⟩, grows_act X hw hl hk, H.touches s, (quiet_act X hl).only, ht⟩

theorem step_facts (X : Xyml) {H : Heap} (hw : H.Closed) {x : Holder} (hx : x.obj.addr < H.next)
    (st : DocStep) : StepFacts X H x (st.acts X H x) := by
  have hedit : ∀ {s o} {e : MapEdit}, H.sec x s = some o → H.touches (.edit e) = [o] →
      H.Legal (.edit e) → H.Keeps (.edit e) → StepFacts X H x [.edit e] := by
    intro s o e hs ht hl hk
    refine stepFacts_one hw hl hk fun o' ho' => ?_
    rw [ht, List.mem_singleton] at ho'
    subst ho'
    exact .single (sec_points hs)
  have hcall : ∀ {m} {op : OMap.Op String Addr}, H.sec x .types = some (.tm m) → opArg op = none →
      StepFacts X H x [.edit (.tm m fun y => y.call op)] := by
    intro m op hs ha
    have hm : ∀ e ∈ ((H.tm m).call op).ents, e ∈ (H.tm m).ents := by
      intro e he
      rcases call_mem he with h | h
      · exact h
      · rw [ha] at h; cases h
    exact hedit hs rfl ⟨hw _ _ (sec_points hs), fun e he =>
      hw (.tm m) (.ty e.2) (List.mem_map.mpr ⟨e, hm e he, rfl⟩)⟩ fun e he => ⟨e.1, hm e he⟩
  cases st with
  | onApi op =>
    cases x with
    | api d =>
      refine stepFacts_one hw hx trivial fun o ho => ?_
      rw [List.mem_singleton.mp ho]; exact .refl
    | lib d => exact stepFacts_nil X hw _
  | onLib op =>
    cases x with
    | api d => exact stepFacts_nil X hw _
    | lib d =>
      refine stepFacts_one hw hx trivial fun o ho => ?_
      rw [List.mem_singleton.mp ho]; exact .refl
  | unset s =>
    have hr : ∀ {o}, o ∈ [x.obj] → H.Reaches x.obj o := fun ho => by
      rw [List.mem_singleton.mp ho]; exact .refl
    have hn : ∀ y : Addr, (none : Option Addr) = some y → y < H.next := fun _ h => by cases h
    cases x <;> cases s <;> first
      | exact stepFacts_nil X hw _
      | exact stepFacts_one hw ⟨hx, hn⟩ rfl fun o ho => hr ho
  | load v =>
    have hr : ∀ {o}, o ∈ x.obj :: H.refs x.obj → H.Reaches x.obj o := fun ho => by
      rcases List.mem_cons.mp ho with rfl | h
      · exact .refl
      · exact .single h
    cases x with
    | api d => exact stepFacts_one hw hx trivial fun o ho => hr ho
    | lib d => exact stepFacts_one hw hx trivial fun o ho => hr ho
  | nodes s f =>
    simp only [DocStep.acts]
    split
    · rename_i m hs
      exact hedit hs rfl (hw _ _ (sec_points hs)) trivial
    · exact stepFacts_nil X hw _
  | anns f =>
    simp only [DocStep.acts]
    split
    · rename_i m hs
      exact hedit hs rfl (hw _ _ (sec_points hs)) trivial
    · exact stepFacts_nil X hw _
  | strings f =>
    simp only [DocStep.acts]
    split
    · rename_i m hs
      exact hedit hs rfl (hw _ _ (sec_points hs)) trivial
    · exact stepFacts_nil X hw _
  | extra f =>
    simp only [DocStep.acts]
    split
    · rename_i m hs
      exact hedit hs rfl (hw _ _ (sec_points hs)) trivial
    · exact stepFacts_nil X hw _
  | putType k v =>
    simp only [DocStep.acts]
    split
    · rename_i m t hs hv
      have hp := sec_points hs
      have e : H.run X [.parseType v, .edit (.tm m fun y => y.put k (H.storeT t).1)] =
          H.putType m k t := by
        simp only [hv, Heap.run, List.foldl_cons, List.foldl_nil, Heap.act, Heap.edit, Heap.putType]
      have e1 : H.act X (.parseType v) = (H.storeT t).2 := by simp only [Heap.act, hv]
      have hst := storeT_ok t H
      refine ⟨⟨trivial, ?_, trivial⟩, ?_, ?_⟩
      · rw [e1]
        refine ⟨Nat.lt_of_lt_of_le (hw _ _ hp) hst.ext.next, fun y hy => ?_⟩
        rcases call_mem (op := .put k _) hy with h | h
        · have hs : H.tm m = (H.storeT t).2.tm m := hst.ext.same (.tm m) (hw _ _ hp)
          rw [← hs] at h
          exact Nat.lt_of_lt_of_le (hw (.tm m) (.ty y.2) (List.mem_map.mpr ⟨y, h, rfl⟩))
            hst.ext.next
        · rw [← Option.mem_some.mp h]
          exact hst.above.self.2
      · rw [e]
        exact (grows_putType hw (hw _ _ hp) k t).by hw
      · rw [e]
        refine ⟨_, (quiet_putType H m k t).only, fun o ho => ?_⟩
        rw [List.mem_singleton.mp ho]
        exact .single hp
    · exact stepFacts_one hw trivial trivial fun _ h => by cases h
  | dropType k =>
    simp only [DocStep.acts]
    split
    · rename_i m hs
      exact hcall hs rfl
    · exact stepFacts_nil X hw _
  | orderTypes b =>
    simp only [DocStep.acts]
    split
    · rename_i m hs
      exact hcall hs rfl
    · exact stepFacts_nil X hw _

/-- Nothing changes in a document that shares nothing. -/
theorem DocSim.elsewhere {X : Xyml} {x y : Holder} {H : Heap} {v : DocVal} (h : DocSim y H v)
    {as : List Act} (hf : StepFacts X H x as) (ha : H.Apart x.obj y.obj) :
    DocSim y (H.run X as) v := by
  obtain ⟨T, hq, hT⟩ := hf.only
  have hg := hf.grows
  have hs : SameFrom H (H.run X as) y.obj :=
    only_sameFrom h.closed hq h.lt fun o ho hr => ha o (hT o ho) hr
  have hrefs : (H.run X as).refs y.obj = H.refs y.obj := (same_refs (hs _ .refl)).symm
  refine ⟨hg.closed, Nat.lt_of_lt_of_le h.lt hg.next, own_grows hg h.closed h.lt hrefs h.own, ?_⟩
  obtain ⟨n, hn⟩ := h.val
  refine ⟨n, ?_⟩
  rw [← hn]
  cases y with
  | api d => simp only [Heap.docVal, sameFrom_apiVal n hs]
  | lib d => simp only [Heap.docVal, sameFrom_libVal n hs]

/-- Documents that share nothing. -/
structure DocsSim (P : Holder → Prop) (H : Heap) (vals : Holder → DocVal) : Prop where
  sim : ∀ x, P x → DocSim x H (vals x)
  apart : ∀ x y, P x → P y → x ≠ y → H.Apart x.obj y.obj

theorem docs_step {X : Xyml} {P : Holder → Prop} {H : Heap} {vals : Holder → DocVal}
    (h : DocsSim P H vals) {x : Holder} (hx : P x) (st : DocStep) :
    DocsSim P (H.run X (st.acts X H x))
      fun y => if y = x then (vals x).step X st else vals y := by
  have hf := step_facts X (h.sim x hx).closed (h.sim x hx).lt st
  have hg := hf.grows
  refine ⟨fun y hy => ?_, fun y z hy hz hne => ?_⟩
  · by_cases hyx : y = x
    · subst hyx
      rw [if_pos rfl]
      exact docStep_sim (h.sim y hy) st
    · rw [if_neg hyx]
      exact (h.sim y hy).elsewhere hf (h.apart x y hx hy (Ne.symm hyx))
  · exact hg.apart _ _ (h.sim y hy).lt (h.sim z hz).lt (h.apart y z hy hz hne)

theorem docs_run {X : Xyml} {P : Holder → Prop} (ps : List (Holder × DocStep))
    (hps : ∀ p ∈ ps, P p.1) {H : Heap} {vals : Holder → DocVal} (h : DocsSim P H vals) :
    DocsSim P (H.runDocs X ps) fun x => (stepsOf x ps).foldl (DocVal.step X) (vals x) := by
  induction ps generalizing H vals with
  | nil => exact h
  | cons p ps ih =>
    have := ih (fun q hq => hps q (List.mem_cons_of_mem _ hq))
      (docs_step (X := X) h (hps p List.mem_cons_self) p.2)
    have e : (fun x => (stepsOf x (p :: ps)).foldl (DocVal.step X) (vals x)) = fun x =>
        (stepsOf x ps).foldl (DocVal.step X)
          (if x = p.1 then (vals p.1).step X p.2 else vals x) := by
      funext x
      by_cases hx : x = p.1
      · subst hx
        simp only [stepsOf, List.filter_cons, decide_true, if_true, List.map_cons, List.foldl_cons]
      · have hd : decide (p.1 = x) = false := decide_eq_false fun e => hx e.symm
        simp only [stepsOf, List.filter_cons, hd, if_neg hx, Bool.false_eq_true, if_false]
    rw [e]
    exact this

theorem docs_reachable {X : Xyml} (ps : List (Holder × DocStep)) {H : Heap} (hr : Reachable X H)
    (hps : ∀ p ∈ ps, p.1.obj.addr < H.next) : Reachable X (H.runDocs X ps) := by
  induction ps generalizing H with
  | nil => exact hr
  | cons p ps ih =>
    have hf := step_facts X hr.closed (hps p List.mem_cons_self) p.2
    have hg := hf.grows
    exact ih (reachable_run hr hf.legal) fun r hr' =>
      Nat.lt_of_lt_of_le (hps r (List.mem_cons_of_mem _ hr')) hg.next

/-- New documents own their sections. -/
theorem own_of_refs {H : Heap} {x : Holder} (hnd : (H.refs x.obj).Nodup)
    (hleaf : ∀ o ∈ H.refs x.obj, H.refs o = []) : H.Own x := by
  refine ⟨hnd, fun s _ o' hr hp => ?_⟩
  rcases ReflTransGen.cases_head hr with h | ⟨y, hy, hr⟩
  · exact h.symm
  · have : o' = y := by
      rcases ReflTransGen.cases_head hr with h | ⟨z, hz, _⟩
      · exact h.symm
      · rw [Heap.Points, hleaf y hy] at hz; cases hz
    subst this
    rw [Heap.Points, hleaf _ hy] at hp
    cases hp

end Verif.Doc
