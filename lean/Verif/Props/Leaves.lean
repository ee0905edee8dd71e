import Verif.Doc.LeavesLemmas
import Verif.Doc.Laws

/-!
# C90, C91: annotations, documentation entries and examples as objects
-/

namespace Verif.Props

open Verif.Doc Verif.Doc.Leaves

/-! ## C90: loading -/

/-! A state for the concrete cases: document 1 is read with an annotation (2) and a documentation
entry (3); document 4 is given the annotation map and the entry of document 1; 5 is an example and
6 a library. -/

private def leafText : Node :=
  .map [(.str "title", .str "T"), (.str "(a)", .map [(.str "x", .str "y")]),
    (.str "documentation", .seq "!!seq" [.map [(.str "title", .str "E")]])]

private def leafSteps : List Step :=
  [.newApi, .loadApi 1 leafText, .newApi, .setApiAnns 4 (some 1), .setDocs 4 (some [3]),
    .newExample .string, .newLib]

private def leafDemo : Leaves := start.run Xyml.std leafSteps

private theorem leafDemo_made : Made Xyml.std leafDemo := by
  refine Made.start.run (ss := leafSteps) ⟨trivial, ?_, trivial, ⟨?_, ?_⟩, ⟨?_, ?_⟩, trivial, trivial,
    trivial⟩
  · exact (by decide : 1 < 2)
  · decide +kernel
  · intro x hx; cases hx; decide +kernel
  · decide +kernel
  · intro x hx
    simp only [Option.getD_some, List.mem_singleton] at hx
    subst hx; decide +kernel

/-- Loading into an API document, whatever it shares with others, leaves it as if nothing were
shared, also when the load fails half way. -/
theorem C90_load_api {X : Xyml} {L : Leaves} (hr : Made X L) (d : Addr) (v : Node) :
    (L.act X (.loadApi d v)).apiVal d = ((L.apiVal d).load X v).1 ∧
      (L.apiLoad X d v).2 = ((L.apiVal d).load X v).2 :=
  ⟨congrArg Prod.fst (apiLoad_sim hr.ok v), congrArg Prod.snd (apiLoad_sim hr.ok v)⟩

example : ((leafDemo.act Xyml.std (.loadApi 4 (.map [(.str "(b)", .map [])]))).apiVal 4).annotations.ents.map
    (·.1) = ["(a)", "(b)"] := by decide +kernel

/-- The same for a library. -/
theorem C90_load_lib {X : Xyml} {L : Leaves} (hr : Made X L) (d : Addr) (v : Node) :
    (L.act X (.loadLib d v)).libVal d = ((L.libVal d).load X v).1 ∧
      (L.libLoad X d v).2 = ((L.libVal d).load X v).2 :=
  ⟨congrArg Prod.fst (libLoad_sim hr.ok v), congrArg Prod.snd (libLoad_sim hr.ok v)⟩

example : ((leafDemo.act Xyml.std (.loadLib 6 (.map [(.str "(b)", .map []), (.str "usage", .str "U")]))).libVal
    6).annotations.ents.map (·.1) = ["(b)"] := by decide +kernel

/-- The same for an example. -/
theorem C90_load_example {X : Xyml} {L : Leaves} (hr : Made X L) (e : Addr) (v : Node) :
    (L.act X (.loadEx e v)).exVal e = ((L.exVal e).load X v).1 ∧
      (L.exLoad X e v).2 = ((L.exVal e).load X v).2 :=
  ⟨congrArg Prod.fst (exLoad_sim hr.ok v), congrArg Prod.snd (exLoad_sim hr.ok v)⟩

example : ((leafDemo.act Xyml.std (.loadEx 5 (.map [(.str "(b)", .map []), (.str "q", .str "r")]))).exVal
    5).extra.ents.map (·.1) = [.str "q"] := by decide +kernel

/-- The same for a documentation entry. -/
theorem C90_load_entry {X : Xyml} {L : Leaves} (d : Addr) (v : Node) :
    (L.act X (.loadDoc d v)).docVal d = ((L.docVal d).load X v).1 ∧
      (L.docLoad X d v).2 = ((L.docVal d).load X v).2 :=
  ⟨congrArg Prod.fst (docLoad_sim X d L v), congrArg Prod.snd (docLoad_sim X d L v)⟩

example : ((leafDemo.act Xyml.std (.loadDoc 3 (.map [(.str "content", .str "C")]))).docVal 3).title = "E" ∧
    ((leafDemo.act Xyml.std (.loadDoc 3 (.map [(.str "content", .str "C")]))).docVal 3).content = "C" := by
  decide +kernel

/-- What is in a document after a load was in it before or is new. -/
theorem C90_load_new_objects {X : Xyml} {L : Leaves} (hr : Made X L) (d : Addr) (v : Node) :
    ∀ o ∈ (L.act X (.loadApi d v)).parts (.api d), o ∈ L.parts (.api d) ∨ L.next ≤ o.addr := by
  have h := ApiInv.load (d := d) hr.ok X v
  intro o ho
  simp only [act, parts, List.mem_cons, List.mem_append, annsParts, List.mem_map,
    List.mem_flatMap] at ho ⊢
  rcases ho with ho | (ho | ⟨e, he, ho⟩) | ⟨y, hy, ho⟩
  · exact .inl (.inl ho)
  · rw [h.anns] at ho
    exact .inl (.inr (.inl (.inl ho)))
  · rw [h.anns] at he
    rcases h.annsNew e he with he | he
    · exact .inl (.inr (.inl (.inr ⟨e, he, ho⟩)))
    · rw [← ho]; exact .inr he
  · obtain ⟨l, h1, -, h3⟩ := h.docsNew
    rw [h1] at hy
    rcases List.mem_append.mp hy with hy | hy
    · refine .inl (.inr (.inr ⟨y, hy, ?_⟩))
      have := h.kept.doc y (hr.ok.docs d y hy) (by simp)
      simpa only [docParts, this] using ho
    · obtain ⟨h4, -, h5⟩ := h3 y hy
      simp only [docParts, List.mem_cons, List.not_mem_nil, or_false, h5] at ho
      rcases ho with ho | ho <;> rw [ho] <;> exact .inr h4

example : (leafDemo.act Xyml.std (.loadApi 4 (.map [(.str "(b)", .map [])]))).parts (.api 4) =
    [.api 4, .anns 1, .ann 2, .ann 7, .doc 3, .extra 3] := by decide +kernel

/-- The entries that a load adds to the documentation come after those that were there, and each is
a new object with a map of extra facets of its own. -/
theorem C90_load_entries {X : Xyml} {L : Leaves} (hr : Made X L) (d : Addr) (v : Node) :
    ∃ l : List Addr,
      ((L.act X (.loadApi d v)).api d).docs.getD [] = (L.api d).docs.getD [] ++ l ∧ l.Nodup ∧
      ∀ x ∈ l, L.next ≤ x ∧ ((L.act X (.loadApi d v)).doc x).extra = x := by
  obtain ⟨l, h1, h2, h3⟩ := (ApiInv.load (d := d) hr.ok X v).docsNew
  exact ⟨l, h1, h2, fun x hx => ⟨(h3 x hx).1, (h3 x hx).2.2⟩⟩

example : ((leafDemo.act Xyml.std (.loadApi 4 (.map [(.str "documentation",
    .seq "!!seq" [.map [], .map []])]))).api 4).docs = some [3, 7, 8] := by decide +kernel

/-- What has nothing in common with a document has nothing in common with it after a load into the
document, and shows the same as before. -/
theorem C90_load_apart {X : Xyml} {L : Leaves} (hr : Made X L) (d : Addr) (v : Node) {y : Leaf} (hy : y.addr < L.next) (h : L.Apart (.api d) y) :
    (L.act X (.loadApi d v)).Apart (.api d) y ∧
      (L.act X (.loadApi d v)).shown y = L.shown y := by
  have hk := kept_act (X := X) hr.ok (.loadApi d v)
  obtain ⟨h1, h2⟩ := shown_kept hk hr.ok hy fun o hT => h o (by
    simp only [touches, List.mem_cons, List.not_mem_nil, or_false] at hT
    simp only [parts, List.mem_cons, List.mem_append, annsParts]
    rcases hT with hT | hT
    · exact .inl hT
    · exact .inr (.inl (.inl hT)))
  refine ⟨fun o ho hp => ?_, h1⟩
  rw [h2] at hp
  rcases C90_load_new_objects hr d v o ho with ho | ho
  · exact h o ho hp
  · exact absurd (parts_lt hr.ok hy o hp) (Nat.not_lt.mpr ho)

example : leafDemo.Apart (.api 4) (.lib 6) ∧ leafDemo.Apart (.api 4) (.ex 5) ∧
    ¬ leafDemo.Apart (.api 4) (.api 1) := by
  unfold Apart; decide +kernel

/-- A load into a document is seen through everything else that has the same map of annotations, and
only there and only in the annotations. -/
theorem C90_load_others {X : Xyml} {L : Leaves} (hr : Made X L) (d : Addr) (v : Node) {y : Leaf}
    (hy : y.addr < L.next) (hn : L.annsOf y ≠ none) (hne : y ≠ .api d) :
    (L.act X (.loadApi d v)).shown y = (L.shown y).withAnns
      (if L.annsOf y = L.annsOf (.api d) then some ((L.apiVal d).load X v).1.annotations
        else L.annotations y) := by
  have ha : ((L.act X (.loadApi d v)).api d).annotations = (L.api d).annotations :=
    (ApiInv.load hr.ok X v).anns
  rw [shown_others (kept_act (X := X) hr.ok (.loadApi d v)) hr.ok (x := .api d) rfl
    (congrArg some ha) hne hy hn (fun o hT => by
      simp only [touches, List.mem_cons, List.not_mem_nil, or_false] at hT
      exact hT.imp id .inl)]
  rw [← (C90_load_api hr d v).1]
  rfl

example : ((leafDemo.act Xyml.std (.loadApi 4 (.map [(.str "(b)", .map []), (.str "title", .str "Z")]))).apiVal
    1).annotations.ents.map (·.1) = ["(a)", "(b)"] ∧
    ((leafDemo.act Xyml.std (.loadApi 4 (.map [(.str "(b)", .map []), (.str "title", .str "Z")]))).apiVal
      1).title = "T" ∧ leafDemo.annsOf (.api 1) = leafDemo.annsOf (.api 4) := by decide +kernel

/-- The same for a load into a library. -/
theorem C90_load_lib_others {X : Xyml} {L : Leaves} (hr : Made X L) (d : Addr) (v : Node) {y : Leaf}
    (hy : y.addr < L.next) (hn : L.annsOf y ≠ none) (hne : y ≠ .lib d) :
    (L.act X (.loadLib d v)).shown y = (L.shown y).withAnns
      (if L.annsOf y = L.annsOf (.lib d) then some ((L.libVal d).load X v).1.annotations
        else L.annotations y) := by
  have ha : ((L.act X (.loadLib d v)).lib d).annotations = (L.lib d).annotations :=
    (LibInv.load hr.ok X v).anns
  rw [shown_others (kept_act (X := X) hr.ok (.loadLib d v)) hr.ok (x := .lib d) rfl
    (congrArg some ha) hne hy hn (fun o hT => by
      simp only [touches, List.mem_cons, List.not_mem_nil, or_false] at hT
      exact hT.imp id .inl)]
  rw [← (C90_load_lib hr d v).1]
  rfl

example : ((leafDemo.run Xyml.std [.setLibAnns 6 (some 1), .loadLib 6 (.map [(.str "(b)", .map [])])]).apiVal
    4).annotations.ents.map (·.1) = ["(a)", "(b)"] := by decide +kernel

/-- The same for a load into an example, for what does not have its map of extra facets. -/
theorem C90_load_example_others {X : Xyml} {L : Leaves} (hr : Made X L) (e : Addr) (v : Node)
    {y : Leaf} (hy : y.addr < L.next) (hn : L.annsOf y ≠ none) (hne : y ≠ .ex e)
    (hx : .extra (L.ex e).extra ∉ L.parts y) :
    (L.act X (.loadEx e v)).shown y = (L.shown y).withAnns
      (if L.annsOf y = L.annsOf (.ex e) then some ((L.exVal e).load X v).1.annotations
        else L.annotations y) := by
  have ha : ((L.act X (.loadEx e v)).ex e).annotations = (L.ex e).annotations :=
    (ExInv.load hr.ok X v).anns
  rw [shown_others (kept_act (X := X) hr.ok (.loadEx e v)) hr.ok (x := .ex e) rfl
    (congrArg some ha) hne hy hn (fun o hT => by
      simp only [touches, List.mem_cons, List.not_mem_nil, or_false] at hT
      rcases hT with hT | hT | hT
      · exact .inl hT
      · exact .inr (.inr ⟨⟨_, hT⟩, hT ▸ hx⟩)
      · exact .inr (.inl hT))]
  rw [← (C90_load_example hr e v).1]
  rfl

example : ((leafDemo.run Xyml.std [.setExAnns 5 (some 1), .loadEx 5 (.map [(.str "(b)", .map [])])]).apiVal
    4).annotations.ents.map (·.1) = ["(a)", "(b)"] ∧
    .extra (leafDemo.ex 5).extra ∉ leafDemo.parts (.api 4) := by decide +kernel

/-- No other example and no documentation entry ever has the map of extra facets of an example. -/
theorem C90_extra_own {X : Xyml} {L : Leaves} (hr : Made X L) (k : Kind) {ss : List Step}
    (hl : LegalAll X (L.act X (.newExample k)) ss) :
    (∀ e ≠ L.next, (((L.act X (.newExample k)).run X ss).ex e).extra ≠
      (((L.act X (.newExample k)).run X ss).ex L.next).extra) ∧
    ∀ d, (((L.act X (.newExample k)).run X ss).doc d).extra ≠
      (((L.act X (.newExample k)).run X ss).ex L.next).extra := by
  have h0 : ExtraOf L.next (L.act X (.newExample k)) := by
    refine ⟨by simp [act, upd_same], fun e he => ?_, fun d => ?_, Nat.lt_succ_self _⟩
    · simp only [act, upd_other _ _ he]
      exact Nat.ne_of_lt (hr.ok.ex e).2
    · exact Nat.ne_of_lt (hr.ok.doc d)
  have h1 := h0.run (.act _ hr trivial) hl
  exact ⟨fun e he => by rw [h1.own]; exact h1.exs e he, fun d => by rw [h1.own]; exact h1.docs d⟩

example : (leafDemo.run Xyml.std [.newExample .string, .newExample .string, .newDoc]).next = 10 ∧
    ((leafDemo.run Xyml.std [.newExample .string, .newExample .string, .newDoc]).ex 7).extra = 7 ∧
    ((leafDemo.run Xyml.std [.newExample .string, .newExample .string, .newDoc]).ex 8).extra = 8 ∧
    ((leafDemo.run Xyml.std [.newExample .string, .newExample .string, .newDoc]).doc 9).extra = 9 := by
  decide +kernel

/-! ## C91: sharing -/

/-- What a program shows of something stays the same as long as no step writes to an object it
consists of. -/
theorem C91_frame {X : Xyml} {L : Leaves} (hr : Made X L) {ss : List Step} (hl : LegalAll X L ss)
    {y : Leaf} (hy : y.addr < L.next) (h : ∀ o ∈ touchesAll X L ss, o ∉ L.parts y) :
    (L.run X ss).shown y = L.shown y ∧ (L.run X ss).parts y = L.parts y :=
  frame hr.ok hl hy h

example : touchesAll Xyml.std leafDemo [.setApiAnns 1 none, .loadApi 1 leafText] = [.api 1, .api 1, .anns 7] ∧
    leafDemo.parts (.api 4) = [.api 4, .anns 1, .ann 2, .doc 3, .extra 3] := by decide +kernel

/-- Two things without a common object have none after a program that neither writes to what one of
them consists of nor stores it anywhere; that one shows the same as before. -/
theorem C91_apart {X : Xyml} {L : Leaves} (hr : Made X L) {ss : List Step} (hl : LegalAll X L ss)
    {x y : Leaf} (hx : x.addr < L.next) (hy : y.addr < L.next) (h : L.Apart x y)
    (hb : Beside X y L ss) :
    (L.run X ss).Apart x y ∧ (L.run X ss).shown y = L.shown y := by
  induction ss generalizing L with
  | nil => exact ⟨h, rfl⟩
  | cons s ss ih =>
    obtain ⟨h1, h2, -⟩ := apart_act hr.ok hl.1 hx hy h hb.1 hb.2.1
    have hn := (kept_act (X := X) hr.ok s).next
    obtain ⟨h3, h4⟩ := ih (.act s hr hl.1) hl.2 (Nat.lt_of_lt_of_le hx hn)
      (Nat.lt_of_lt_of_le hy hn) h1 hb.2.2
    exact ⟨h3, h4.trans h2⟩

example : leafDemo.Apart (.api 1) (.lib 6) ∧
    Beside Xyml.std (.lib 6) leafDemo [.setApiAnns 1 none, .loadApi 1 leafText, .setApiAnns 4 (some 7)] := by
  simp only [Beside, Apart]
  decide +kernel

/-- What is in something after a step was in it before, was stored by the step, or is new. -/
theorem C91_parts_come_from {X : Xyml} {L : Leaves} (hr : Made X L) {s : Step} (hl : L.Legal s)
    {x : Leaf} (hx : x.addr < L.next) : ∀ o ∈ (L.act X s).parts x,
    o ∈ L.parts x ∨ (∃ g ∈ L.gives s, o ∈ L.parts g) ∨ L.next ≤ o.addr :=
  parts_act hr.ok hl hx

example : (leafDemo.act Xyml.std (.setExAnns 5 (some 1))).parts (.ex 5) = [.ex 5, .extra 5, .anns 1, .ann 2] ∧
    leafDemo.gives (.setExAnns 5 (some 1)) = [.anns 1] := by decide +kernel

/-- A document that was read into a new object has no object in common with anything that existed
before, and all of that shows the same as before. -/
theorem C91_parse_apart {X : Xyml} {L : Leaves} (hr : Made X L) (v : Node) {y : Leaf}
    (hy : y.addr < L.next) :
    (L.run X [.newApi, .loadApi L.next v]).Apart (.api L.next) y ∧
      (L.run X [.newApi, .loadApi L.next v]).shown y = L.shown y := by
  have h1 : Made X (L.act X .newApi) := .act _ hr trivial
  have hp : ∀ o ∈ (L.act X .newApi).parts (.api L.next), o.addr = L.next := by
    intro o ho
    simp [act, parts, annsParts, upd_same, OM.empty] at ho
    rcases ho with rfl | rfl <;> rfl
  obtain ⟨h2, h3⟩ := shown_kept (kept_act (X := X) hr.ok .newApi) hr.ok hy (by simp [touches])
  have hlt : L.next < (L.act X .newApi).next := Nat.lt_succ_self _
  have ha : (L.act X .newApi).Apart (.api L.next) y := by
    intro o ho hq
    rw [h3] at hq
    have := parts_lt hr.ok hy o hq
    rw [hp o ho] at this
    exact Nat.lt_irrefl _ this
  obtain ⟨h4, h5⟩ := C90_load_apart h1 L.next v (Nat.lt_trans hy hlt) ha
  exact ⟨h4, h5.trans h2⟩

example : (leafDemo.run Xyml.std [.newApi, .loadApi leafDemo.next leafText]).parts (.api leafDemo.next) =
    [.api 7, .anns 7, .ann 8, .doc 9, .extra 9] := by decide +kernel

/-- A new document, library, example or documentation entry is empty and has no object in common
with anything that existed before. -/
theorem C91_new {X : Xyml} {L : Leaves} (hr : Made X L) (k : Kind) :
    ((L.act X .newApi).apiVal L.next = APISpec.new ∧ (L.act X .newLib).libVal L.next = Library.new ∧
      (L.act X (.newExample k)).exVal L.next = Example.new k ∧
      (L.act X .newDoc).docVal L.next = Documentation.new) ∧
    ∀ y : Leaf, y.addr < L.next → (L.act X .newApi).Apart (.api L.next) y ∧
      (L.act X .newLib).Apart (.lib L.next) y ∧ (L.act X (.newExample k)).Apart (.ex L.next) y ∧
      (L.act X .newDoc).Apart (.doc L.next) y := by
  refine ⟨⟨?_, ?_, ?_, ?_⟩, fun y hy => ?_⟩
  · simp only [act, apiVal, upd_same, annsVal]; rfl
  · simp only [act, libVal, upd_same, annsVal]; rfl
  · simp only [act, exVal, upd_same, annsVal]; rfl
  · simp only [act, newEntry, docVal, upd_same]
  have key : ∀ (s : Step) (x : Leaf), L.touches s = [] →
      (∀ o ∈ (L.act X s).parts x, o.addr = L.next) → (L.act X s).Apart x y := by
    intro s x hT hp o ho hq
    rw [(shown_kept (kept_act (X := X) hr.ok s) hr.ok hy (by simp [hT])).2] at hq
    have := parts_lt hr.ok hy o hq
    rw [hp o ho] at this
    exact Nat.lt_irrefl _ this
  refine ⟨key _ _ rfl fun o ho => ?_, key _ _ rfl fun o ho => ?_, key _ _ rfl fun o ho => ?_,
    key _ _ rfl fun o ho => ?_⟩
  · simp [act, parts, annsParts, upd_same, OM.empty] at ho
    rcases ho with rfl | rfl <;> rfl
  · simp [act, parts, annsParts, upd_same, OM.empty] at ho
    rcases ho with rfl | rfl <;> rfl
  · simp [act, parts, annsParts, upd_same, OM.empty] at ho
    rcases ho with rfl | rfl | rfl <;> rfl
  · simp [act, parts, newEntry, docParts, upd_same] at ho
    rcases ho with rfl | rfl <;> rfl

example : (leafDemo.act Xyml.std (.newExample .string)).parts (.ex 7) = [.ex 7, .extra 7, .anns 7] := by
  decide +kernel

/-- Putting an annotation into an annotation map, or changing a map of extra facets, shows as the
same change of the value in what holds the map. -/
theorem C91_edit_maps {X : Xyml} {L : Leaves} {y : Leaf} {m : Addr} (hm : L.annsOf y = some m)
    (k : String) (a e d : Addr) (f : OM Scalar Node → OM Scalar Node) :
    (L.act X (.editAnns m fun t => t.put k a)).shown y =
      (L.shown y).withAnns (some ((L.annsVal m).put k (L.um a))) ∧
    (L.act X (.editExtra (L.ex e).extra f)).exVal e = { L.exVal e with extra := f (L.exVal e).extra } ∧
    (L.act X (.editExtra (L.doc d).extra f)).docVal d =
      { L.docVal d with extra := f (L.docVal d).extra } := by
  refine ⟨?_, ?_, ?_⟩
  · have hv : (L.act X (.editAnns m fun t => t.put k a)).annsVal m = (L.annsVal m).put k (L.um a) := by
      simp only [annsVal, act, upd_same, OM.put, List.map_append, List.map_cons, List.map_nil,
        OM.mk.injEq, and_true, List.append_cancel_right_eq, List.filter_map]
      rfl
    rw [← hv]
    cases y <;> simp only [annsOf, Option.some.injEq, reduceCtorEq] at hm <;> subst hm <;> rfl
  · simp only [exVal, act, upd_same, annsVal]
  · simp only [docVal, act, upd_same]

example : ((leafDemo.run Xyml.std [.newAnn, .editAnns 1 fun t => t.put "(n)" 7]).apiVal
    4).annotations.ents.map (·.1) = ["(a)", "(n)"] := by decide +kernel

/-- A change of an annotation is seen in everything with an annotation map that has an entry for it,
under the keys of these entries and nowhere else. -/
theorem C91_edit_annotation {X : Xyml} {L : Leaves} {a : Addr}
    (f : OM String Node → OM String Node) {y : Leaf} {m : Addr}
    (hm : L.annsOf y = some m) {ks : List String}
    (hk : ∀ e ∈ (L.am m).ents, e.2 = a ↔ e.1 ∈ ks) :
    (L.act X (.editAnn a f)).shown y = (L.shown y).withAnns
      (some ⟨(L.annsVal m).ents.map fun e => if e.1 ∈ ks then (e.1, f e.2) else e,
        (L.annsVal m).omap⟩) := by
  have hv : (L.act X (.editAnn a f)).annsVal m =
      ⟨(L.annsVal m).ents.map fun e => if e.1 ∈ ks then (e.1, f e.2) else e,
        (L.annsVal m).omap⟩ := by
    simp only [annsVal, act, List.map_map, OM.mk.injEq, and_true]
    refine List.map_congr_left fun e he => ?_
    simp only [Function.comp]
    by_cases h : e.1 ∈ ks
    · have h' := (hk e he).2 h
      rw [if_pos h, h', upd_same]
    · have h' : e.2 ≠ a := fun h' => h ((hk e he).1 h')
      rw [if_neg h, upd_other _ _ h']
  rw [← hv]
  cases y <;> simp only [annsOf, Option.some.injEq, reduceCtorEq] at hm <;> subst hm <;> rfl

example : leafDemo.annsOf (.api 4) = some 1 ∧ (∀ e ∈ (leafDemo.am 1).ents, e.2 = 2 ↔ e.1 ∈ ["(a)"]) ∧
    ((leafDemo.act Xyml.std (.editAnn 2 fun m => m.put "z" (.str "w"))).apiVal 4).annotations.ents.map
      (fun e => (e.1, e.2.ents.map (·.1))) = [("(a)", ["x", "z"])] := by decide +kernel

/-- A change of a documentation entry is seen in every document that lists it, everywhere it is
listed. -/
theorem C91_edit_entry {X : Xyml} {L : Leaves} (e d : Addr) (s : String) :
    (L.act X (.setTitle e s)).apiVal d =
      { L.apiVal d with documentation := (L.api d).docs.map fun l => l.map fun y =>
          if y = e then { L.docVal y with title := s } else L.docVal y } ∧
    (L.act X (.setContent e s)).apiVal d =
      { L.apiVal d with documentation := (L.api d).docs.map fun l => l.map fun y =>
          if y = e then { L.docVal y with content := s } else L.docVal y } := by
  have h1 : (L.act X (.setTitle e s)).docVal =
      fun y => if y = e then { L.docVal y with title := s } else L.docVal y := by
    funext y
    by_cases hy : y = e
    · subst hy; rw [if_pos rfl]; simp only [docVal, act, upd_same]
    · rw [if_neg hy]; simp only [docVal, act, upd_other _ _ hy]
  have h2 : (L.act X (.setContent e s)).docVal =
      fun y => if y = e then { L.docVal y with content := s } else L.docVal y := by
    funext y
    by_cases hy : y = e
    · subst hy; rw [if_pos rfl]; simp only [docVal, act, upd_same]
    · rw [if_neg hy]; simp only [docVal, act, upd_other _ _ hy]
  exact ⟨by rw [← h1]; rfl, by rw [← h2]; rfl⟩

example : ((leafDemo.act Xyml.std (.setTitle 3 "N")).apiVal 1).documentation.map
      (fun l => l.map Documentation.title) = some ["N"] ∧
    ((leafDemo.act Xyml.std (.setTitle 3 "N")).apiVal 4).documentation.map
      (fun l => l.map Documentation.title) = some ["N"] := by decide +kernel

/-- The text of a document does not depend on what its documentation entries hold: changing or
loading one, or changing a map of extra facets, does not change what any document is written as. -/
theorem C91_entries_not_written {X Y : Xyml} {L : Leaves} (hr : Made X L) {s : Step}
    (hs : (∃ e t, s = .setTitle e t) ∨ (∃ e t, s = .setContent e t) ∨ (∃ e v, s = .loadDoc e v) ∨
      ∃ x f, s = .editExtra x f) (d : Addr) (hd : d < L.next) :
    ((L.act X s).apiVal d).toYAML Y = (L.apiVal d).toYAML Y := by
  have hk := kept_act (X := X) hr.ok s
  have hT : ∀ o ∈ L.touches s, (∃ z, o = .doc z) ∨ ∃ z, o = .extra z := by
    rcases hs with ⟨e, t, rfl⟩ | ⟨e, t, rfl⟩ | ⟨e, v, rfl⟩ | ⟨x, f, rfl⟩ <;> intro o ho <;>
      simp only [touches, List.mem_cons, List.not_mem_nil, or_false] at ho
    · exact .inl ⟨_, ho⟩
    · exact .inl ⟨_, ho⟩
    · exact ho.imp (fun h => ⟨_, h⟩) fun h => ⟨_, h⟩
    · exact .inr ⟨_, ho⟩
  have hno : ∀ o, (∀ z, o ≠ .doc z) → (∀ z, o ≠ .extra z) → o ∉ L.touches s := by
    intro o h1 h2 ho
    rcases hT o ho with ⟨z, h⟩ | ⟨z, h⟩
    · exact h1 z h
    · exact h2 z h
  have ha := hk.api d hd (hno _ (by simp) (by simp))
  have hm := annsVal_other hk hr.ok (hr.ok.api d) (hno _ (by simp) (by simp))
    fun a => hno _ (by simp) (by simp)
  have hd' : ∀ o : Option (List Addr), (o.map fun l => l.map (L.act X s).docVal).map
      (renderList Documentation.toYAML) =
      (o.map fun l => l.map L.docVal).map (renderList Documentation.toYAML) := by
    intro o
    cases o with
    | none => rfl
    | some l =>
      simp only [Option.map_some, renderList, List.map_map]
      rfl
  unfold APISpec.toYAML
  congr 1
  simp only [APISpec.marshal, apiVal, ha, hm, hd']

example : ((leafDemo.act Xyml.std (.setTitle 3 "N")).apiVal 4).toYAML Xyml.std =
    (leafDemo.apiVal 4).toYAML Xyml.std ∧ (leafDemo.apiVal 4).documentation.isSome :=
  ⟨C91_entries_not_written leafDemo_made (.inl ⟨3, "N", rfl⟩) 4 (by decide +kernel), by decide +kernel⟩

/-- `SetAnnotations` on an example, a document or a library: it shows the annotations of the map it
was given, from then on that very map, and empty annotations for nil; nothing else that existed
shows a change. -/
theorem C91_set_annotations {X : Xyml} {L : Leaves} (hr : Made X L) {x : Leaf} {m : Option Addr}
    {s : Step} (hs : setAnns x m = some s) (hl : L.Legal s) :
    (L.act X s).shown x = (L.shown x).withAnns (some (orFresh (m.map L.annsVal))) ∧
    (∀ a, m = some a → (L.act X s).annsOf x = some a) ∧
    (m = none → (L.act X s).annsOf x = some L.next) ∧
    ∀ y : Leaf, y.addr < L.next → y ≠ x → (L.act X s).shown y = L.shown y := by
  have hT : L.touches s = [x] := by
    cases x <;> simp only [setAnns, Option.some.injEq, reduceCtorEq] at hs <;> subst hs <;> rfl
  have hx : L.annsOf x ≠ none := by
    cases x <;> simp [setAnns] at hs <;> simp [annsOf]
  refine ⟨?_, ?_, ?_, fun y hy hne => ?_⟩
  · cases x <;> simp only [setAnns, Option.some.injEq, reduceCtorEq] at hs <;> subst hs <;>
      cases m <;>
      simp only [shown, act, withAnns, exVal, apiVal, libVal, upd_same, Shown.withAnns, orFresh,
        Option.map_some, Option.map_none, annsVal, OM.empty, List.map_nil] <;> rfl
  · rintro a rfl
    cases x <;> simp only [setAnns, Option.some.injEq, reduceCtorEq] at hs <;> subst hs <;>
      simp only [annsOf, act, withAnns, upd_same]
  · rintro rfl
    cases x <;> simp only [setAnns, Option.some.injEq, reduceCtorEq] at hs <;> subst hs <;>
      simp only [annsOf, act, withAnns, upd_same]
  · refine (shown_kept (kept_act (X := X) hr.ok s) hr.ok hy fun o ho hp => ?_).1
    rw [hT, List.mem_singleton] at ho
    subst ho
    exact holder_not_part hx hne hp

example : setAnns (.lib 6) (some 1) = some (.setLibAnns 6 (some 1)) ∧ leafDemo.Legal (.setLibAnns 6 (some 1)) ∧
    ((leafDemo.act Xyml.std (.setLibAnns 6 (some 1))).libVal 6).annotations.ents.map (·.1) = ["(a)"] :=
  ⟨rfl, ⟨by decide +kernel, fun x hx => by cases hx; decide +kernel⟩, by decide +kernel⟩

/-- The other setters of documents, libraries and examples do to the object what they do to a value
(`Build.lean`), and nothing to anything else. -/
theorem C91_setters {X : Xyml} {L : Leaves} (hr : Made X L) (d : Addr) :
    (∀ op : ApiOp, (∀ l, op ≠ .setDocumentation l) → op ≠ .unsetDocumentation →
      (∀ m, op ≠ .setAnnotations m) → op ≠ .unsetAnnotations →
      (L.act X (.onApi d op)).apiVal d = (L.apiVal d).apply op ∧
      ∀ y : Leaf, y.addr < L.next → y ≠ .api d → (L.act X (.onApi d op)).shown y = L.shown y) ∧
    (∀ op : LibOp, (∀ m, op ≠ .setAnnotations m) → op ≠ .unsetAnnotations →
      (L.act X (.onLib d op)).libVal d = (L.libVal d).apply op ∧
      ∀ y : Leaf, y.addr < L.next → y ≠ .lib d → (L.act X (.onLib d op)).shown y = L.shown y) ∧
    (∀ op : ExampleOp, (∀ m, op ≠ .setAnnotations m) → op ≠ .unsetAnnotations →
      (∀ f, op ≠ .editAnnotations f) → (∀ f, op ≠ .editExtra f) →
      (L.act X (.onEx d op)).exVal d = (L.exVal d).apply op ∧
      ∀ y : Leaf, y.addr < L.next → y ≠ .ex d → (L.act X (.onEx d op)).shown y = L.shown y) ∧
    ∀ l, (L.act X (.setDocs d l)).apiVal d =
        (L.apiVal d).apply (.setDocumentation (l.map fun l => l.map L.docVal)) ∧
      ∀ y : Leaf, y.addr < L.next → y ≠ .api d → (L.act X (.setDocs d l)).shown y = L.shown y := by
  have key : ∀ (s : Step) (x : Leaf), L.touches s = [x] → L.annsOf x ≠ none →
      ∀ y : Leaf, y.addr < L.next → y ≠ x → (L.act X s).shown y = L.shown y := by
    intro s x hT hx y hy hne
    refine (shown_kept (kept_act (X := X) hr.ok s) hr.ok hy fun o ho hp => ?_).1
    rw [hT, List.mem_singleton] at ho
    subst ho
    exact holder_not_part hx hne hp
  refine ⟨fun op h1 h2 h3 h4 => ⟨?_, key _ (.api d) rfl (by simp [annsOf])⟩,
    fun op h3 h4 => ⟨?_, key _ (.lib d) rfl (by simp [annsOf])⟩,
    fun op h1 h2 h3 h4 => ⟨?_, key _ (.ex d) rfl (by simp [annsOf])⟩,
    fun l => ⟨?_, key _ (.api d) rfl (by simp [annsOf])⟩⟩
  · have h : plainApi op = true := by
      cases op <;> first | rfl | exact absurd rfl (h1 _) | exact absurd rfl h2 |
        exact absurd rfl (h3 _) | exact absurd rfl h4
    simp only [act, if_pos h, apiVal, upd_same]
    cases op <;> first | rfl | exact absurd h (by simp [plainApi])
  · have h : plainLib op = true := by
      cases op <;> first | rfl | exact absurd rfl (h3 _) | exact absurd rfl h4
    simp only [act, if_pos h, libVal, upd_same]
    cases op <;> first | rfl | exact absurd h (by simp [plainLib])
  · simp only [act, setEx, exVal, upd_same]
    cases op <;> first | rfl | exact absurd rfl (h1 _) | exact absurd rfl h2 |
      exact absurd rfl (h3 _) | exact absurd rfl (h4 _)
  · simp only [act, apiVal, upd_same]; rfl

example : ((leafDemo.act Xyml.std (.onApi 4 (.setTitle "Q"))).apiVal 4).title = "Q" ∧
    ((leafDemo.act Xyml.std (.onApi 4 (.setTitle "Q"))).apiVal 1).title = "T" := by decide +kernel

/-- What has the same annotation map goes on showing the same annotations, whatever the program
does, until it sets the annotations of one of them. -/
theorem C91_stay_shared {X : Xyml} {L : Leaves} (hr : Made X L) {ss : List Step}
    (hl : LegalAll X L ss) {x y : Leaf} (hx : x.addr < L.next) (hy : y.addr < L.next)
    (h : L.annsOf x = L.annsOf y) (h1 : ∀ m, ∀ s ∈ ss, setAnns x m ≠ some s)
    (h2 : ∀ m, ∀ s ∈ ss, setAnns y m ≠ some s) :
    (L.run X ss).annotations x = (L.run X ss).annotations y := by
  unfold annotations
  rw [annsOf_run hr.ok hl hx h1, annsOf_run hr.ok hl hy h2, h]

example : leafDemo.annsOf (.api 1) = leafDemo.annsOf (.api 4) ∧
    ((leafDemo.run Xyml.std [.loadApi 1 (.map [(.str "(b)", .map [])]), .loadApi 4 (.map [(.str "(c)", .map [])]),
      .editAnns 1 fun m => ⟨m.ents.drop 1, m.omap⟩]).apiVal 1).annotations.ents.map (·.1) = ["(b)", "(c)"] := by
  decide +kernel

/-- `SetAnnotations` does not copy: a load into one document can change another. -/
theorem C91_not_copied : ¬ ∀ (X : Xyml) (L : Leaves), Made X L → ∀ (d e : Addr) (v : Node),
    d < L.next → e < L.next → d ≠ e → (L.act X (.loadApi d v)).apiVal e = L.apiVal e := by
  intro h
  have hm : Made Xyml.std (start.run Xyml.std [.newApi, .newApi, .setApiAnns 2 (some 1)]) :=
    Made.start.run ⟨trivial, trivial, ⟨(by decide : 2 < 3), fun x hx => by cases hx; decide⟩, trivial⟩
  have := congrArg (fun a : APISpec => a.annotations.len)
    (h Xyml.std _ hm 1 2 (.map [(.str "(a)", .map [])]) (by decide) (by decide) (by decide))
  exact absurd this (by decide)

end Verif.Props
