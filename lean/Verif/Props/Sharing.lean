import Verif.Doc.HeapSec
import Verif.Props.Graph

/-!
# What objects have in common

New and loaded objects are separate from everything else; setters store the object they are given.
-/

namespace Verif.Props
open Verif.Doc Relation

/-! ## C72: sections in common -/

/-- `y.SetX(x.Y())` gives the two documents one section in common, which may be under different
names. -/
theorem C72_handed_over {X : Xyml} {H : Heap} {x y : Holder} {s s' : Sec} {m : Addr} {c : Act}
    (hm : H.sec x s = some (s'.sort m)) (hc : setSec y s' (some m) = some c) (hl : H.Legal c)
    (hx : x.obj.addr < H.next) :
    (H.act X c).sec y s' = H.sec x s ∧ (H.act X c).sec x s = H.sec x s := by
  have h1 : (H.act X c).sec y s' = H.sec x s := by
    rw [hm]
    cases y <;> cases s' <;> cases hc <;>
      simp only [Heap.act, Heap.setApi, Heap.setLib, Heap.sec, upd_self, Sec.sort, Heap.pick,
        Option.getD_some]
  refine ⟨h1, ?_⟩
  by_cases he : ∃ m', setSec x s m' = some c
  · have : x = y ∧ s = s' := by
      obtain ⟨m', he⟩ := he
      cases x <;> cases s <;> cases he <;> cases y <;> cases s' <;> cases hc <;> exact ⟨rfl, rfl⟩
    obtain ⟨rfl, rfl⟩ := this
    exact h1
  · exact act_sec X hl hx fun m' h => he ⟨m', h⟩

example (X : Xyml) : ((Heap.start.run X [.newApi, .newLib]).act X (.setLib 7 (.traits (some 1)))).sec (.lib 7)
    .traits = (Heap.start.run X [.newApi, .newLib]).sec (.api 1) .traits :=
  (C72_handed_over (H := Heap.start.run X [.newApi, .newLib]) (x := .api 1) (y := .lib 7) (s := .traits) (s' := .traits) (m := 1) rfl rfl
    ⟨show 7 < 11 by decide, fun x hx => by cases hx; exact show 1 < 11 by decide⟩
    (show 1 < 11 by decide)).1

/-- A section that two documents have in common stays in common, and shows the same in both, through
every program that does not set or unset it in one of them: edits through either document, loads
into either, edits of the data types in it. -/
theorem C72_stay_shared {X : Xyml} {H : Heap} {ss : List Act} (hl : H.LegalAll X ss) {x y : Holder}
    (hx : x.obj.addr < H.next) (hy : y.obj.addr < H.next) {s s' : Sec}
    (h : H.sec x s = H.sec y s') (hxn : ∀ m c, setSec x s m = some c → c ∉ ss)
    (hyn : ∀ m c, setSec y s' m = some c → c ∉ ss) :
    (H.run X ss).sec x s = (H.run X ss).sec y s' ∧
      ∀ n v w, (H.run X ss).secVal n x s = some v → (H.run X ss).secVal n y s' = some w → v = w := by
  have e : (H.run X ss).sec x s = (H.run X ss).sec y s' := by
    rw [run_sec hl hx hxn, run_sec hl hy hyn, h]
  refine ⟨e, fun n v w hv hw => ?_⟩
  obtain ⟨o, ho, hv⟩ := secVal_mapVal hv
  obtain ⟨o', ho', hw⟩ := secVal_mapVal hw
  rw [e, ho'] at ho
  cases ho
  exact Option.some.inj (hv.symm.trans hw)

/-- `UnsetX` on one document gives it a new empty section and leaves the other document as it is,
also when they had the section in common. -/
theorem C72_unset_alone {X : Xyml} {H : Heap} (hr : Reachable X H) {x y : Holder} (hxy : y ≠ x)
    (hx : x.obj.addr < H.next) (hy : y.obj.addr < H.next) {s : Sec} {c : Act}
    (hc : setSec x s none = some c) :
    (H.act X c).sec x s = some (s.sort H.next) ∧
      (∀ n v, (H.act X c).secVal n x s = some v → v = .types (OM.empty true) ∨
        v = .nodes (OM.empty true) ∨ v = .anns (OM.empty true) ∨ v = .strings (OM.empty true)) ∧
      ∀ n s', (H.act X c).sec y s' = H.sec y s' ∧ (H.act X c).secVal n y s' = H.secVal n y s' := by
  have hl : H.Legal c := by
    cases x <;> cases s <;> cases hc <;> exact ⟨hx, fun _ h => by cases h⟩
  have ht : H.touches c = [x.obj] := by cases x <;> cases s <;> cases hc <;> rfl
  have h1 : (H.act X c).sec x s = some (s.sort H.next) := by
    cases x <;> cases s <;> cases hc <;>
      simp only [Heap.act, Heap.setApi, Heap.setLib, Heap.sec, upd_self, Sec.sort, Heap.pick,
        Option.getD_none]
  refine ⟨h1, fun n v hv => ?_, fun n s' => ?_⟩
  · obtain ⟨o, ho, hv'⟩ := secVal_mapVal hv
    clear hv
    rw [h1] at ho
    cases ho
    cases x <;> cases s <;> cases hc <;>
      simp [Sec.sort, Heap.mapVal, Heap.act, Heap.setApi, Heap.setLib, freshIn, upd_self, OM.empty,
        followMap] at hv' <;> subst hv' <;> simp [OM.empty]
  · have hs : SameFrom H (H.act X c) y.obj := by
      refine only_sameFrom hr.closed (quiet_act X hl).only hy fun o ho hr => ?_
      rw [ht, List.mem_singleton] at ho
      subst ho
      exact hxy (reaches_doc hr).symm
    refine ⟨sec_same (hs _ .refl) s', ?_⟩
    cases y with
    | api d => simp only [Heap.secVal, sameFrom_apiVal n hs]
    | lib d => simp only [Heap.secVal, sameFrom_libVal n hs]

section examples

/-- Two API documents at 1 and 7 and a library at 13; the second document's resource types are the
first one's traits, and the library's traits too. -/
def sharedProgram : List Act :=
  [.newApi, .newApi, .newLib, .setApi 7 (.resourceTypes (some 1)), .setLib 13 (.traits (some 1))]

/-- The heap it makes. -/
def sharedHeap (X : Xyml) : Heap := Heap.start.run X sharedProgram

theorem shared_legal (X : Xyml) : Heap.start.LegalAll X sharedProgram :=
  ⟨trivial, trivial, trivial,
    ⟨show 7 < 17 by decide, fun x hx => by cases hx; exact show 1 < 17 by decide⟩,
    ⟨show 13 < 17 by decide, fun x hx => by cases hx; exact show 1 < 17 by decide⟩, trivial⟩

example (X : Xyml) : (sharedHeap X).sec (.api 1) .traits = (sharedHeap X).sec (.api 7) .resourceTypes ∧
    (sharedHeap X).sec (.api 1) .traits = (sharedHeap X).sec (.lib 13) .traits := ⟨rfl, rfl⟩

/-- A trait that is put in through the library, and unsetting the library's traits after that, shows
as a resource type of the second document. -/
example (X : Xyml) (v : Node) :
    ((sharedHeap X).run X [.edit (.um 1 fun m => m.put "t" v), .setLib 13 (.traits none)]).secVal 0
      (.api 7) .resourceTypes = some (.nodes ⟨[("t", v)], false⟩) := rfl

/-- The premises of `C72_stay_shared` hold for this program and the two API documents. -/
example (X : Xyml) (v : Node) :
    ((sharedHeap X).run X [.edit (.um 1 fun m => m.put "t" v), .setLib 13 (.traits none)]).sec
        (.api 1) .traits =
      ((sharedHeap X).run X [.edit (.um 1 fun m => m.put "t" v), .setLib 13 (.traits none)]).sec
        (.api 7) .resourceTypes :=
  (C72_stay_shared (H := sharedHeap X) (ss := [.edit (.um 1 fun m => m.put "t" v), .setLib 13 (.traits none)])
    ⟨show 1 < 17 by decide, ⟨show 13 < 17 by decide, fun x hx => by cases hx⟩, trivial⟩
    (x := .api 1) (y := .api 7) (show 1 < 17 by decide) (show 7 < 17 by decide) (s := .traits)
    (s' := .resourceTypes) rfl (fun m c hc => by cases hc; simp) fun m c hc => by cases hc; simp).1

end examples

/-! ## C73: separate objects stay separate -/

theorem apart_new {H H' : Heap} (hw : H.Closed) (he : Extends H H') {p : Obj}
    (hp : H'.Above H.next p) {o : Obj} (ho : o.addr < H.next) : H'.Apart o p := by
  intro x hx hx'
  have hs : SameFrom H H' o := fun y hy => he.same y (closed_reaches hw hy ho)
  exact absurd (closed_reaches hw ((sameFrom_reaches hs).mpr hx) ho)
    (Nat.not_lt.mpr (hp x hx').1)

/-- A data type that is read is a new object with the value that was read, and nothing that was
there before is part of it. -/
theorem C73_read_type {X : Xyml} {H : Heap} (hr : Reachable X H) {v : Node} {t : DT}
    (h : hat X v = .ok t) :
    ∃ a, H.next ≤ a ∧ a < (H.act X (.parseType v)).next ∧
      (∃ n, (H.act X (.parseType v)).val n a = some t) ∧
      ∀ o, o.addr < H.next → (H.act X (.parseType v)).Apart o (.ty a) := by
  have e : H.act X (.parseType v) = (H.storeT t).2 := by simp only [Heap.act, h]
  rw [e]
  have hs := storeT_ok t H
  exact ⟨_, hs.above.self.1, hs.above.self.2, hs.val,
    fun o ho => apart_new hr.closed hs.ext hs.above ho⟩

/-- A mapping with a nested definition, read into a heap that has a document. -/
example : ∃ a, 7 ≤ a ∧ ∀ o, o.addr < 7 → ((Heap.start.act Xyml.std .newApi).act Xyml.std
    (.parseType (.map [(.str "items", .str "string")]))).Apart o (.ty a) := by
  obtain ⟨t, h⟩ := Res.isOk_iff.mp
    (show (hat Xyml.std (.map [(.str "items", .str "string")])).isOk = true from rfl)
  obtain ⟨a, h1, -, -, h2⟩ := C73_read_type (H := Heap.start.act Xyml.std .newApi)
    (.act _ .start trivial) h
  exact ⟨a, h1, h2⟩

/-- The same for the constructors. -/
theorem C73_new_type {X : Xyml} {H : Heap} (hr : Reachable X H) (k : Kind) :
    ∃ a, H.next ≤ a ∧ a < (H.act X (.newType k)).next ∧
      (∃ n, (H.act X (.newType k)).val n a = some (DT.new k)) ∧
      ∀ o, o.addr < H.next → (H.act X (.newType k)).Apart o (.ty a) := by
  have hs := storeT_ok (DT.new k) H
  exact ⟨_, hs.above.self.1, hs.above.self.2, hs.val,
    fun o ho => apart_new hr.closed hs.ext hs.above ho⟩

example (X : Xyml) : ∃ a, ((sharedHeap X).act X (.newType .object)).Apart (.lib 13) (.ty a) :=
  (C73_new_type (reachable_run .start (shared_legal X)) .object).imp fun _ h =>
    h.2.2.2 (.lib 13) (show 13 < 17 by decide)

/-- A new API document has new sections. -/
theorem C73_new_api {X : Xyml} {H : Heap} (hr : Reachable X H) :
    ∃ d, H.next ≤ d ∧ d < (H.act X .newApi).next ∧
      (H.act X .newApi).apiVal 0 d = some APISpec.new ∧
      ((H.act X .newApi).refs (.api d)).Nodup ∧
      ∀ o, o.addr < H.next → (H.act X .newApi).Apart o (.api d) := by
  have hq := quiet_newApi H
  have hrefs : H.newApi.2.refs (.api H.next) = [.tm H.next, .um H.next, .um (H.next + 1),
      .um (H.next + 2), .am H.next, .um (H.next + 3), .um (H.next + 4), .sm H.next,
      .um (H.next + 5), .xm H.next] := by simp only [Heap.refs, Heap.newApi, upd_self]
  refine ⟨H.next, Nat.le_refl _, Nat.lt_add_of_pos_right (by decide), ?_, ?_, fun o ho =>
    apart_new hr.closed hq.only.extends ?_ ho⟩
  · simp [Heap.act, Heap.newApi, Heap.apiVal, Heap.apiWith, upd, followMap, OM.empty, APISpec.new]
  · show (H.newApi.2.refs (.api H.next)).Nodup
    rw [hrefs]
    simp
  · refine above_of_refs (Nat.le_refl _) (Nat.lt_add_of_pos_right (by decide)) fun y hy => ?_
    rw [hrefs] at hy
    have hb : H.next ≤ y.addr ∧ y.addr < H.next + 6 := by
      simp only [List.mem_cons, List.not_mem_nil, or_false] at hy
      rcases hy with rfl | rfl | rfl | rfl | rfl | rfl | rfl | rfl | rfl | rfl <;>
        simp [Obj.addr]
    refine above_leaf hb.1 hb.2 ?_
    simp only [List.mem_cons, List.not_mem_nil, or_false] at hy
    rcases hy with rfl | rfl | rfl | rfl | rfl | rfl | rfl | rfl | rfl | rfl <;>
      simp [Heap.refs, Heap.newApi, upd_self, OM.empty]

example (X : Xyml) : ∃ d, ((sharedHeap X).act X .newApi).apiVal 0 d = some APISpec.new ∧
    ((sharedHeap X).act X .newApi).Apart (.lib 13) (.api d) :=
  (C73_new_api (reachable_run .start (shared_legal X))).imp fun _ h =>
    ⟨h.2.2.1, h.2.2.2.2 (.lib 13) (show 13 < 17 by decide)⟩

/-- A new library has new sections. -/
theorem C73_new_lib {X : Xyml} {H : Heap} (hr : Reachable X H) :
    ∃ d, H.next ≤ d ∧ d < (H.act X .newLib).next ∧
      (H.act X .newLib).libVal 0 d = some Library.new ∧
      ((H.act X .newLib).refs (.lib d)).Nodup ∧
      ∀ o, o.addr < H.next → (H.act X .newLib).Apart o (.lib d) := by
  have hq := quiet_newLib H
  have hrefs : H.newLib.2.refs (.lib H.next) = [.tm H.next, .um H.next, .um (H.next + 1),
      .um (H.next + 2), .am H.next, .um (H.next + 3), .sm H.next, .xm H.next] := by
    simp only [Heap.refs, Heap.newLib, upd_self]
  refine ⟨H.next, Nat.le_refl _, Nat.lt_add_of_pos_right (by decide), ?_, ?_, fun o ho =>
    apart_new hr.closed hq.only.extends ?_ ho⟩
  · simp [Heap.act, Heap.newLib, Heap.libVal, Heap.libWith, upd, followMap, OM.empty, Library.new]
  · show (H.newLib.2.refs (.lib H.next)).Nodup
    rw [hrefs]
    simp
  · refine above_of_refs (Nat.le_refl _) (Nat.lt_add_of_pos_right (by decide)) fun y hy => ?_
    rw [hrefs] at hy
    have hb : H.next ≤ y.addr ∧ y.addr < H.next + 4 := by
      simp only [List.mem_cons, List.not_mem_nil, or_false] at hy
      rcases hy with rfl | rfl | rfl | rfl | rfl | rfl | rfl | rfl <;>
        simp [Obj.addr]
    refine above_leaf hb.1 hb.2 ?_
    simp only [List.mem_cons, List.not_mem_nil, or_false] at hy
    rcases hy with rfl | rfl | rfl | rfl | rfl | rfl | rfl | rfl <;>
      simp [Heap.refs, Heap.newLib, upd_self, OM.empty]

example (X : Xyml) : ∃ d, ((sharedHeap X).act X .newLib).libVal 0 d = some Library.new ∧
    ((sharedHeap X).act X .newLib).Apart (.lib 13) (.lib d) :=
  (C73_new_lib (reachable_run .start (shared_legal X))).imp fun _ h =>
    ⟨h.2.2.1, h.2.2.2.2 (.lib 13) (show 13 < 17 by decide)⟩

/-- A new map is empty, nothing points to it, and making it changes nothing that was there. -/
theorem C73_new_map {X : Xyml} {H : Heap} (hr : Reachable X H) :
    ∃ m, H.next ≤ m ∧ m < (H.act X .newMap).next ∧
      (H.act X .newMap).tm m = OM.empty true ∧ (H.act X .newMap).fm m = OM.empty true ∧
      (H.act X .newMap).am m = OM.empty true ∧ (H.act X .newMap).em m = OM.empty true ∧
      (H.act X .newMap).xm m = OM.empty true ∧ (H.act X .newMap).sm m = OM.empty true ∧
      (H.act X .newMap).um m = OM.empty true ∧
      (∀ o o', (H.act X .newMap).Points o o' → o'.addr ≠ m) ∧
      ∀ o, o.addr < H.next → Same H (H.act X .newMap) o := by
  have hq := quiet_act X (H := H) (s := .newMap) trivial
  refine ⟨H.next, Nat.le_refl _, Nat.lt_succ_self _, ?_, ?_, ?_, ?_, ?_, ?_, ?_, fun o o' hp => ?_,
    fun o ho => hq.only.same o ho (by simp [Heap.touches])⟩
  any_goals exact upd_self _ _ _
  refine Nat.ne_of_lt ?_
  have hp : o' ∈ (H.newMap).refs o := hp
  cases o with
  | tm a =>
    by_cases e : a = H.next
    · subst e; simp [Heap.refs, Heap.newMap, upd_self, OM.empty] at hp
    · simp only [Heap.refs, Heap.newMap, upd_ne _ _ e] at hp; exact hr.closed (.tm a) _ hp
  | fm a =>
    by_cases e : a = H.next
    · subst e; simp [Heap.refs, Heap.newMap, upd_self, OM.empty] at hp
    · simp only [Heap.refs, Heap.newMap, upd_ne _ _ e] at hp; exact hr.closed (.fm a) _ hp
  | em a =>
    by_cases e : a = H.next
    · subst e; simp [Heap.refs, Heap.newMap, upd_self, OM.empty] at hp
    · simp only [Heap.refs, Heap.newMap, upd_ne _ _ e] at hp; exact hr.closed (.em a) _ hp
  | ty a => exact hr.closed (.ty a) _ hp
  | api a => exact hr.closed (.api a) _ hp
  | lib a => exact hr.closed (.lib a) _ hp
  | _ a => cases hp

example (X : Xyml) : ∃ m, 17 ≤ m ∧ ((sharedHeap X).act X .newMap).um m = OM.empty true ∧
    Same (sharedHeap X) ((sharedHeap X).act X .newMap) (.um 1) := by
  obtain ⟨m, h1, -, -, -, -, -, -, -, h2, -, h3⟩ :=
    C73_new_map (reachable_run .start (shared_legal X))
  exact ⟨m, h1, h2, h3 (.um 1) (show 1 < 17 by decide)⟩

/-- The same for a new example. -/
theorem C73_new_example {X : Xyml} {H : Heap} (hr : Reachable X H) (k : Kind) :
    ∃ m, H.next ≤ m ∧ m < (H.act X (.newExample k)).next ∧
      (H.act X (.newExample k)).ex m = Example.new k ∧
      (∀ o o', (H.act X (.newExample k)).Points o o' → o'.addr ≠ m) ∧
      ∀ o, o.addr < H.next → Same H (H.act X (.newExample k)) o := by
  have hq := quiet_act X (H := H) (s := .newExample k) trivial
  refine ⟨H.next, Nat.le_refl _, Nat.lt_succ_self _, upd_self _ _ _, fun o o' hp => ?_,
    fun o ho => hq.only.same o ho (by simp [Heap.touches])⟩
  refine Nat.ne_of_lt (hr.closed o _ ?_)
  cases o <;> exact hp

example (X : Xyml) : ∃ m, ((sharedHeap X).act X (.newExample .string)).ex m = Example.new .string ∧
    Same (sharedHeap X) ((sharedHeap X).act X (.newExample .string)) (.um 1) :=
  (C73_new_example (reachable_run .start (shared_legal X)) .string).imp fun _ h =>
    ⟨h.2.2.1, h.2.2.2.2 (.um 1) (show 1 < 17 by decide)⟩

/-- The same for new XML settings. -/
theorem C73_new_xml {X : Xyml} {H : Heap} (hr : Reachable X H) :
    ∃ m, H.next ≤ m ∧ m < (H.act X .newXML).next ∧ (H.act X .newXML).xo m = XML.new ∧
      (∀ o o', (H.act X .newXML).Points o o' → o'.addr ≠ m) ∧
      ∀ o, o.addr < H.next → Same H (H.act X .newXML) o := by
  have hq := quiet_act X (H := H) (s := .newXML) trivial
  refine ⟨H.next, Nat.le_refl _, Nat.lt_succ_self _, upd_self _ _ _, fun o o' hp => ?_,
    fun o ho => hq.only.same o ho (by simp [Heap.touches])⟩
  refine Nat.ne_of_lt (hr.closed o _ ?_)
  cases o <;> exact hp

example (X : Xyml) : ∃ m, ((sharedHeap X).act X .newXML).xo m = XML.new ∧
    Same (sharedHeap X) ((sharedHeap X).act X .newXML) (.um 1) :=
  (C73_new_xml (reachable_run .start (shared_legal X))).imp fun _ h =>
    ⟨h.2.2.1, h.2.2.2.2 (.um 1) (show 1 < 17 by decide)⟩

/-- Programs that create, load, unset and remove, but hand over no pointer, never give two objects
something in common. -/
theorem C73_stay_apart {X : Xyml} {H : Heap} (hr : Reachable X H) {ss : List Act}
    (hl : H.LegalAll X ss) (hk : H.KeepsAll X ss) {o o' : Obj} (ho : o.addr < H.next)
    (ho' : o'.addr < H.next) (ha : H.Apart o o') : (H.run X ss).Apart o o' :=
  apart_run hr hl hk ho ho' ha

/-- Loading a document does not show in an API document that has nothing in common with it. -/
theorem C73_load_alone {X : Xyml} {H : Heap} (hr : Reachable X H) {d e : Addr} (hd : d < H.next)
    (he : e < H.next) (ha : H.Apart (.api e) (.api d)) (v : Node) (n : Nat) :
    (H.act X (.loadApi d v)).apiWrite X n e = H.apiWrite X n e ∧
      (H.act X (.loadApi d v)).Apart (.api e) (.api d) := by
  refine ⟨(C71_api hr (ss := [.loadApi d v]) ⟨hd, trivial⟩ he fun o ho => ?_).1 n,
    C73_stay_apart hr (ss := [.loadApi d v]) ⟨hd, trivial⟩ ⟨trivial, trivial⟩ he hd ha⟩
  have ho : o ∈ (Obj.api d :: H.refs (.api d)) ++ [] := ho
  rw [List.append_nil] at ho
  intro hr
  rcases List.mem_cons.mp ho with rfl | ho
  · exact ha _ hr .refl
  · exact ha _ hr (.single ho)

section examples

/-- Two documents; after the second was made nothing is handed over. -/
example (X : Xyml) (v w : Node) :
    ((Heap.start.run X [.newApi, .newApi]).run X [.loadApi 1 v, .loadApi 7 w]).Apart (.api 1)
      (.api 7) := by
  have h1 : Reachable X (Heap.start.act X .newApi) := .act _ .start trivial
  have h2 : Reachable X (Heap.start.run X [.newApi, .newApi]) := .act .newApi h1 trivial
  refine C73_stay_apart (ss := [.loadApi 1 v, .loadApi 7 w]) h2 ⟨show 1 < 13 by decide, ?_, trivial⟩ ⟨trivial, trivial, trivial⟩
    (show 1 < 13 by decide) (show 7 < 13 by decide) ?_
  · exact Nat.lt_of_lt_of_le (show 7 < 13 by decide)
      (quiet_act X (H := Heap.start.run X [.newApi, .newApi]) (s := .loadApi 1 v)
        (show 1 < 13 by decide)).only.next
  · intro x hx hx'
    have a1 : x ∈ [Obj.api 1, .tm 1, .um 1, .um 2, .um 3, .am 1, .um 4, .um 5, .sm 1, .um 6,
        .xm 1] := by
      refine reaches_mem (fun y hy z hz => ?_) hx (by decide)
      simp only [List.mem_cons, List.not_mem_nil, or_false] at hy
      rcases hy with rfl | hy
      · exact List.mem_cons_of_mem _ hz
      · rcases hy with rfl | rfl | rfl | rfl | rfl | rfl | rfl | rfl | rfl | rfl <;> cases hz
    have a2 : x ∈ [Obj.api 7, .tm 7, .um 7, .um 8, .um 9, .am 7, .um 10, .um 11, .sm 7, .um 12,
        .xm 7] := by
      refine reaches_mem (fun y hy z hz => ?_) hx' (by decide)
      simp only [List.mem_cons, List.not_mem_nil, or_false] at hy
      rcases hy with rfl | hy
      · exact List.mem_cons_of_mem _ hz
      · rcases hy with rfl | rfl | rfl | rfl | rfl | rfl | rfl | rfl | rfl | rfl <;> cases hz
    simp only [List.mem_cons, List.not_mem_nil, or_false] at a1
    rcases a1 with rfl | rfl | rfl | rfl | rfl | rfl | rfl | rfl | rfl | rfl | rfl <;>
      exact absurd a2 (by decide)

end examples

end Verif.Props
