import Verif.Doc.HeapDocsRun
import Verif.Props.Sharing

/-!
# Objects as values

When a call on an object does to its value what the documentation of the call says.
-/

namespace Verif.Props
open Verif.Doc Relation

/-! ## C74: calls on data type objects -/

/-- A setter that takes no object does to the value of a data type what the call does to a value, or
there is no such method on either. -/
theorem C74_setter {X : Xyml} {H : Heap} (hr : Reachable X H) {n : Nat} {a : Addr} {t : DT}
    (hv : H.val n a = some t) {op : TypeOp} (hp : op.plain = true) :
    (∀ H', H.typeCall a (.plain op) = some H' → ∃ t', t.apply op = some t' ∧
      H'.val (n + 1) a = some t') ∧
    (H.typeCall a (.plain op) = none → t.apply op = none) :=
  plain_exact hr.closed hv hp

/-- A setter that takes an object stores the value of that object, if the receiver is not part of
it. -/
theorem C74_setter_object {X : Xyml} {H : Heap} (hr : Reachable X H) {n : Nat} {a : Addr} {t : DT}
    (hv : H.val n a = some t) {op : PtrOp} (hl : H.Legal (.onType a (.ptr op)))
    (harg : ∀ o ∈ op.arg, ¬ H.Reaches o (.ty a)) {o : TypeOp} (ho : op.deref H n = some o) :
    (∀ H', H.typeCall a (.ptr op) = some H' → ∃ t', t.apply o = some t' ∧
      H'.val (n + 1) a = some t') ∧
    (H.typeCall a (.ptr op) = none → t.apply o = none) :=
  ptr_exact hr.closed hv hl harg ho

/-- If the receiver is part of the object that the setter takes, it can never be written again. -/
theorem C74_setter_loop {X : Xyml} {H : Heap} (hr : Reachable X H) {a : Addr} {op : PtrOp}
    (hl : H.Legal (.onType a (.ptr op))) {o : Obj} (ho : op.arg = some o)
    (hloop : H.Reaches o (.ty a)) {H' : Heap} (hc : H.typeCall a (.ptr op) = some H') (n : Nat) :
    H'.write X n a = none := by
  have hc' : H.setPtr a op = some H' := hc
  have hr' : Reachable X H' := by
    have := Reachable.act (X := X) _ hr hl
    simpa only [Heap.act, hc, Option.getD_some] using this
  have hq := (quiet_setPtr hl hc').only
  have hp : H'.Points (.ty a) o := setPtr_points hc' ho
  have hlt : o.addr < H.next := by
    have h2 := hl.2
    cases op <;> cases ‹Option Addr› <;> cases ho <;> exact h2 _ rfl
  refine (C70_overflow_iff hr' (Nat.lt_of_lt_of_le hl.1 hq.next)).mpr
    ⟨a, .refl, TransGen.head' hp ?_⟩ n
  clear hp ho
  induction hloop using ReflTransGen.head_induction_on with
  | refl => exact .refl
  | @head x y hxy hya ih =>
    by_cases hx : x = .ty a
    · subst hx; exact .refl
    · refine .head ?_ (ih (hr.closed _ _ hxy))
      have := hq.same x hlt (by simpa using hx)
      rw [Heap.Points, ← same_refs this]
      exact hxy

/-! ### Changes through a getter -/

section edits
variable {X : Xyml} {H : Heap} {n : Nat} {a m : Addr} {t : DT}

/-- A change of the map that `ExtraFacets` returned is a change of the extra facets, if only the data
type has that map. -/
theorem C74_edit_extra (hr : Reachable X H) (hv : H.val n a = some t)
    (hg : H.get a .extra = some (.xm m)) (ho : H.OwnedBy (.ty a) (.xm m))
    (f : OM Scalar Node → OM Scalar Node) :
    ∃ t', t.apply (.editExtra f) = some t' ∧ (H.edit (.xm m f)).val (n + 1) a = some t' :=
  edit_extra_exact hr.closed hv hg ho f

/-- The same for annotations. -/
theorem C74_edit_annotations (hr : Reachable X H) (hv : H.val n a = some t)
    (hg : H.get a .annotations = some (.am m)) (ho : H.OwnedBy (.ty a) (.am m))
    (f : OM String Ann → OM String Ann) :
    ∃ t', t.apply (.editAnnotations f) = some t' ∧ (H.edit (.am m f)).val (n + 1) a = some t' :=
  edit_annotations_exact hr.closed hv hg ho f

/-- The same for the XML settings. -/
theorem C74_edit_xml (hr : Reachable X H) (hv : H.val n a = some t)
    (hg : H.get a .xml = some (.xo m)) (ho : H.OwnedBy (.ty a) (.xo m)) (op : XMLOp) :
    ∃ t', t.apply (.setXML (some ((H.xo m).apply op))) = some t' ∧
      (H.edit (.xo m op)).val (n + 1) a = some t' :=
  edit_xml_exact hr.closed hv hg ho op

/-- The same for a call on the map of examples. -/
theorem C74_edit_examples (hr : Reachable X H) (hv : H.val n a = some t)
    (hg : H.get a .examples = some (.em m)) (ho : H.OwnedBy (.ty a) (.em m))
    {op : OMap.Op String Addr} (hl : H.Legal (.edit (.em m fun x => x.call op)))
    {op' : OMap.Op String Example} (hop : followOp (fun x => some (H.ex x)) op = some op') :
    ∃ t', t.apply (.editExamples fun x => x.call op') = some t' ∧
      (H.edit (.em m fun x => x.call op)).val (n + 1) a = some t' :=
  edit_examples_exact hr.closed hv hg ho hl hop

/-- The same for a call on the map of facet definitions; a map of data types that is put in may not
contain the map it is put into. -/
theorem C74_edit_facets (hr : Reachable X H) (hv : H.val n a = some t)
    (hg : H.get a .facets = some (.fm m)) (ho : H.OwnedBy (.ty a) (.fm m))
    {op : OMap.Op String Addr} (hl : H.Legal (.edit (.fm m fun x => x.call op)))
    (harg : ∀ u ∈ opArg op, u < H.next ∧ ¬ H.Reaches (.tm u) (.fm m))
    {op' : OMap.Op String (OM String DT)} (hop : followOp (H.typeMap n) op = some op') :
    ∃ t', t.apply (.editFacets fun x => x.call op') = some t' ∧
      (H.edit (.fm m fun x => x.call op)).val (n + 1) a = some t' :=
  edit_facets_exact hr.closed hv hg ho hl harg hop

/-- The same for a call on the map of properties. -/
theorem C74_edit_properties (hr : Reachable X H) (hv : H.val n a = some t)
    (hg : H.get a .properties = some (.tm m)) (ho : H.OwnedBy (.ty a) (.tm m))
    {op : OMap.Op String Addr} (hl : H.Legal (.edit (.tm m fun x => x.call op)))
    (harg : ∀ u ∈ opArg op, u < H.next ∧ ¬ H.Reaches (.ty u) (.tm m))
    {op' : OMap.Op String DT} (hop : followOp (H.val n) op = some op') :
    ∃ t', t.apply (.editProperties fun x => x.call op') = some t' ∧
      (H.edit (.tm m fun x => x.call op)).val (n + 1) a = some t' :=
  edit_properties_exact hr.closed hv hg ho hl harg hop

/-- Whatever a program does inside the item type that `Items` returned, and nowhere else in the
array type, shows as the new item type. -/
theorem C74_inside_items (hr : Reachable X H) (hv : H.val n a = some t)
    (ha : a < H.next) (hg : H.get a .items = some (.ty m)) {ss : List Act}
    (hl : H.LegalAll X ss)
    (hs : ∀ o ∈ H.touchesAll X ss, o ≠ .ty a ∧
      ∀ p, H.Points (.ty a) p → p ≠ .ty m → ¬ H.Reaches p o)
    {u : DT} (hu : (H.run X ss).val n m = some u) :
    ∃ t', t.apply (.setItems (some u)) = some t' ∧ (H.run X ss).val (n + 1) a = some t' :=
  items_exact hr.closed hv hg (quiet_run hl).only hs hu ha

/-- The same inside a property: `k` is the only name of the data type `c` in the map. -/
theorem C74_inside_property (hr : Reachable X H) (hv : H.val n a = some t)
    (ha : a < H.next) (hg : H.get a .properties = some (.tm m)) {c : Addr} {k : String}
    (hkc : ∀ e ∈ (H.tm m).ents, e.1 = k ↔ e.2 = c) {ss : List Act} (hl : H.LegalAll X ss)
    (hs : ∀ o ∈ H.touchesAll X ss, o ≠ .ty a ∧ o ≠ .tm m ∧
      (∀ p, H.Points (.ty a) p → p ≠ .tm m → ¬ H.Reaches p o) ∧
      ∀ e ∈ (H.tm m).ents, e.2 ≠ c → ¬ H.Reaches (.ty e.2) o)
    {u : DT} (hu : (H.run X ss).val n c = some u) :
    ∃ t', t.apply (.editProperties fun x => x.call (.replaceIfExists k u)) = some t' ∧
      (H.run X ss).val (n + 1) a = some t' :=
  property_exact hr.closed hv ha hg hkc (quiet_run hl).only hs hu

end edits

section examples

/-- An object type at 1 with the string type at 2 as its property `p`, and an array type at 3 whose
items are the object type. -/
def nestProgram : List Act :=
  [.newType .object, .newType .string, .edit (.tm 1 fun m => m.put "p" 2), .newType .array,
    .onType 3 (.ptr (.setItems (some 1)))]

/-- The heap it makes. -/
def nestHeap (X : Xyml) : Heap := Heap.start.run X nestProgram

theorem nest_legal (X : Xyml) : Heap.start.LegalAll X nestProgram := by
  refine ⟨trivial, trivial, ⟨?_, ?_⟩, trivial, ⟨?_, ?_⟩, trivial⟩
  · show 1 < 3; decide
  · intro x hx
    have : x = ("p", 2) := by simpa using (show x ∈ [("p", 2)] from hx)
    subst this; show 2 < 3; decide
  · show 3 < 4; decide
  · rintro x ⟨⟩; show 1 < 4; decide

theorem nest_reachable (X : Xyml) : Reachable X (nestHeap X) := reachable_run .start (nest_legal X)

/-- What the object type leads to. -/
theorem nest_object (X : Xyml) {o : Obj} (h : (nestHeap X).Reaches (.ty 1) o) :
    o ∈ [.ty 1, .xm 1, .am 1, .em 1, .fm 1, .tm 1, .ty 2, .xm 2, .am 2, .em 2, .fm 2] := by
  refine reaches_mem (fun x hx y hy => ?_) h (by decide)
  simp only [List.mem_cons, List.not_mem_nil, or_false] at hx
  rcases hx with rfl | rfl | rfl | rfl | rfl | rfl | rfl | rfl | rfl | rfl | rfl
  · have : (nestHeap X).refs (.ty 1) = [.xm 1, .am 1, .em 1, .fm 1, .tm 1] := rfl
    rw [this] at hy
    revert y; decide
  any_goals cases hy; done
  · have : (nestHeap X).refs (.tm 1) = [.ty 2] := rfl
    rw [this] at hy
    revert y; decide
  · have : (nestHeap X).refs (.ty 2) = [.xm 2, .am 2, .em 2, .fm 2] := rfl
    rw [this] at hy
    revert y; decide

/-- No other object in the object type points to its maps. -/
theorem nest_owned (X : Xyml) {o : Obj} (ho : o ∈ [Obj.xm 1, .am 1, .em 1, .fm 1, .tm 1]) :
    (nestHeap X).OwnedBy (.ty 1) o := by
  intro x hx hp
  have hx := nest_object X hx
  simp only [List.mem_cons, List.not_mem_nil, or_false] at hx
  rcases hx with rfl | rfl | rfl | rfl | rfl | rfl | rfl | rfl | rfl | rfl | rfl
  · rfl
  any_goals cases hp; done
  · have : (nestHeap X).refs (.tm 1) = [.ty 2] := rfl
    rw [Heap.Points, this] at hp
    revert o; decide
  · have : (nestHeap X).refs (.ty 2) = [.xm 2, .am 2, .em 2, .fm 2] := rfl
    rw [Heap.Points, this] at hp
    revert o; decide

/-- A setter of the object type (`C74_setter`). -/
example (X : Xyml) : ∃ t t', (nestHeap X).val 2 1 = some t ∧
    t.apply (.setDescription "d") = some t' ∧
    ((nestHeap X).act X (.onType 1 (.plain (.setDescription "d")))).val 3 1 = some t' := by
  obtain ⟨t', h1, h2⟩ := (C74_setter (nest_reachable X) (n := 2) (a := 1) rfl
    (op := .setDescription "d") rfl).1 _ rfl
  exact ⟨_, t', rfl, h1, h2⟩

/-- A call that no array type has, in the heap and on the value. -/
example (X : Xyml) : ∃ t, (nestHeap X).val 3 3 = some t ∧ t.apply (.setPattern "x") = none :=
  ⟨_, rfl, (C74_setter (nest_reachable X) (n := 3) (a := 3) rfl (op := .setPattern "x") rfl).2 rfl⟩

/-- Calls on the maps of the object type, which it does not share. -/
example (X : Xyml) (v : Node) : ∃ t t', (nestHeap X).val 2 1 = some t ∧
    t.apply (.editExtra fun m => m.put (.str "k") v) = some t' ∧
    ((nestHeap X).edit (.xm 1 fun m => m.put (.str "k") v)).val 3 1 = some t' := by
  obtain ⟨t', h⟩ := C74_edit_extra (nest_reachable X) (n := 2) (a := 1) (m := 1) rfl rfl
    (nest_owned X (by decide)) fun m => m.put (.str "k") v
  exact ⟨_, t', rfl, h⟩

example (X : Xyml) (v : Ann) : ∃ t t', (nestHeap X).val 2 1 = some t ∧
    t.apply (.editAnnotations fun m => m.put "(x)" v) = some t' ∧
    ((nestHeap X).edit (.am 1 fun m => m.put "(x)" v)).val 3 1 = some t' := by
  obtain ⟨t', h⟩ := C74_edit_annotations (nest_reachable X) (n := 2) (a := 1) (m := 1) rfl rfl
    (nest_owned X (by decide)) fun m => m.put "(x)" v
  exact ⟨_, t', rfl, h⟩

example (X : Xyml) : ∃ t t', (nestHeap X).val 2 1 = some t ∧
    t.apply (.editProperties fun x => x.call (.delete "p")) = some t' ∧
    ((nestHeap X).edit (.tm 1 fun x => x.call (.delete "p"))).val 3 1 = some t' := by
  obtain ⟨t', h⟩ := C74_edit_properties (nest_reachable X) (n := 2) (a := 1) (m := 1) rfl rfl
    (nest_owned X (by decide)) (op := .delete "p") ⟨show 1 < 4 by decide, nofun⟩ nofun rfl
  exact ⟨_, t', rfl, h⟩

/-- The string type is put in under a second name. -/
example (X : Xyml) : ∃ t u t', (nestHeap X).val 2 1 = some t ∧ (nestHeap X).val 2 2 = some u ∧
    t.apply (.editProperties fun x => x.call (.put "q" u)) = some t' ∧
    ((nestHeap X).edit (.tm 1 fun x => x.call (.put "q" 2))).val 3 1 = some t' := by
  obtain ⟨t', h⟩ := C74_edit_properties (nest_reachable X) (n := 2) (a := 1) (m := 1) rfl rfl
    (nest_owned X (by decide)) (op := .put "q" 2) ⟨show 1 < 4 by decide, by
      intro x hx
      have hx : x ∈ [("p", 2), ("q", 2)] := hx
      exact show x.2 < 4 from (by decide : ∀ x ∈ [("p", 2), ("q", 2)], x.2 < 4) x hx⟩ (by
      rintro u ⟨⟩
      refine ⟨show 2 < 4 by decide, fun hr => ?_⟩
      rcases ReflTransGen.cases_head hr with h | ⟨y, hy, h⟩
      · cases h
      · have : (nestHeap X).refs (.ty 2) = [.xm 2, .am 2, .em 2, .fm 2] := rfl
        rw [Heap.Points, this] at hy
        simp only [List.mem_cons, List.not_mem_nil, or_false] at hy
        rcases hy with rfl | rfl | rfl | rfl <;>
          (rcases ReflTransGen.cases_head h with h | ⟨z, hz, _⟩
           · cases h
           · cases hz)) rfl
  exact ⟨_, _, t', rfl, rfl, h⟩

/-- A new example, a new map and new XML settings after that, all of them in the object type. -/
def partsHeap (X : Xyml) : Heap :=
  (nestHeap X).run X [.newExample .object, .newMap, .newXML, .onType 1 (.ptr (.setXML (some 6)))]

theorem parts_reachable (X : Xyml) : Reachable X (partsHeap X) := by
  refine reachable_run (nest_reachable X) ⟨trivial, trivial, trivial, ⟨?_, ?_⟩, trivial⟩
  · show 1 < 7; decide
  · rintro x ⟨⟩; show 6 < 7; decide

/-- What the object type leads to then. -/
theorem parts_object (X : Xyml) {o : Obj} (h : (partsHeap X).Reaches (.ty 1) o) :
    o ∈ [.ty 1, .xm 1, .am 1, .em 1, .fm 1, .tm 1, .xo 6, .ty 2, .xm 2, .am 2, .em 2, .fm 2] := by
  refine reaches_mem (fun x hx y hy => ?_) h (by decide)
  simp only [List.mem_cons, List.not_mem_nil, or_false] at hx
  rcases hx with rfl | rfl | rfl | rfl | rfl | rfl | rfl | rfl | rfl | rfl | rfl | rfl
  · have : ∀ y ∈ (partsHeap X).refs (.ty 1), y ∈ [Obj.xm 1, .am 1, .em 1, .fm 1, .tm 1, .xo 6] := by
      show ∀ y ∈ [Obj.xm 1, .am 1, .em 1, .fm 1, .xo 6, .tm 1], _
      decide
    exact (by decide : ∀ y ∈ [Obj.xm 1, .am 1, .em 1, .fm 1, .tm 1, .xo 6], y ∈ _) y (this y hy)
  any_goals cases hy; done
  · have : (partsHeap X).refs (.tm 1) = [.ty 2] := rfl
    rw [this] at hy
    revert y; decide
  · have : (partsHeap X).refs (.ty 2) = [.xm 2, .am 2, .em 2, .fm 2] := rfl
    rw [this] at hy
    revert y; decide

theorem parts_owned (X : Xyml) {o : Obj} (ho : o ∈ [Obj.xm 1, .am 1, .em 1, .fm 1, .tm 1, .xo 6]) :
    (partsHeap X).OwnedBy (.ty 1) o := by
  intro x hx hp
  have hx := parts_object X hx
  simp only [List.mem_cons, List.not_mem_nil, or_false] at hx
  rcases hx with rfl | rfl | rfl | rfl | rfl | rfl | rfl | rfl | rfl | rfl | rfl | rfl
  · rfl
  any_goals cases hp; done
  · have : (partsHeap X).refs (.tm 1) = [.ty 2] := rfl
    rw [Heap.Points, this] at hp
    revert o; decide
  · have : (partsHeap X).refs (.ty 2) = [.xm 2, .am 2, .em 2, .fm 2] := rfl
    rw [Heap.Points, this] at hp
    revert o; decide

example (X : Xyml) : ∃ t t', (partsHeap X).val 2 1 = some t ∧
    t.apply (.setXML (some (((partsHeap X).xo 6).apply (.setName "n")))) = some t' ∧
    ((partsHeap X).edit (.xo 6 (.setName "n"))).val 3 1 = some t' := by
  obtain ⟨t', h⟩ := C74_edit_xml (parts_reachable X) (n := 2) (a := 1) (m := 6) rfl rfl
    (parts_owned X (by decide)) (.setName "n")
  exact ⟨_, t', rfl, h⟩

example (X : Xyml) : ∃ t t', (partsHeap X).val 2 1 = some t ∧
    t.apply (.editExamples fun x => x.call (.put "e" ((partsHeap X).ex 4))) = some t' ∧
    ((partsHeap X).edit (.em 1 fun x => x.call (.put "e" 4))).val 3 1 = some t' := by
  obtain ⟨t', h⟩ := C74_edit_examples (parts_reachable X) (n := 2) (a := 1) (m := 1) rfl rfl
    (parts_owned X (by decide)) (op := .put "e" 4) ⟨show 1 < 7 by decide, by
      intro x hx
      have hx : x ∈ [("e", 4)] := hx
      exact show x.2 < 7 from (by decide : ∀ x ∈ [("e", 4)], x.2 < 7) x hx⟩ rfl
  exact ⟨_, t', rfl, h⟩

example (X : Xyml) : ∃ t m t', (partsHeap X).val 2 1 = some t ∧ (partsHeap X).typeMap 2 5 = some m ∧
    t.apply (.editFacets fun x => x.call (.put "f" m)) = some t' ∧
    ((partsHeap X).edit (.fm 1 fun x => x.call (.put "f" 5))).val 3 1 = some t' := by
  obtain ⟨t', h⟩ := C74_edit_facets (parts_reachable X) (n := 2) (a := 1) (m := 1) rfl rfl
    (parts_owned X (by decide)) (op := .put "f" 5) ⟨show 1 < 7 by decide, by
      intro x hx
      have hx : x ∈ [("f", 5)] := hx
      exact show x.2 < 7 from (by decide : ∀ x ∈ [("f", 5)], x.2 < 7) x hx⟩ (by
      rintro u ⟨⟩
      refine ⟨show 5 < 7 by decide, fun hr => ?_⟩
      rcases ReflTransGen.cases_head hr with h | ⟨y, hy, _⟩
      · cases h
      · cases hy) rfl
  exact ⟨_, _, t', rfl, rfl, h⟩

/-- Calls on the object type show in the array type that has it as its items. -/
example (X : Xyml) : ∃ t u t', (nestHeap X).val 3 3 = some t ∧
    ((nestHeap X).run X [.onType 1 (.plain (.setDescription "d")),
      .onType 2 (.plain (.setPattern "x"))]).val 3 1 = some u ∧
    t.apply (.setItems (some u)) = some t' ∧
    ((nestHeap X).run X [.onType 1 (.plain (.setDescription "d")),
      .onType 2 (.plain (.setPattern "x"))]).val 4 3 = some t' := by
  obtain ⟨t', h⟩ := C74_inside_items (nest_reachable X) (n := 3) (a := 3) (m := 1) rfl
    (show 3 < 4 by decide) rfl
    (ss := [.onType 1 (.plain (.setDescription "d")), .onType 2 (.plain (.setPattern "x"))])
    ⟨⟨show 1 < 4 by decide, trivial⟩, ⟨show 2 < 4 by decide, trivial⟩, trivial⟩ (by
      intro o ho
      have ho : o ∈ [Obj.ty 1, .ty 2] := ho
      refine ⟨by rintro rfl; revert ho; decide, fun p hp hne hr => ?_⟩
      have : (nestHeap X).refs (.ty 3) = [.xm 3, .am 3, .em 3, .fm 3, .ty 1] := rfl
      rw [Heap.Points, this] at hp
      simp only [List.mem_cons, List.not_mem_nil, or_false] at hp ho
      rcases hp with rfl | rfl | rfl | rfl | rfl
      any_goals exact absurd rfl hne
      all_goals
        rcases ReflTransGen.cases_head hr with h | ⟨y, hy, _⟩
        · subst h; rcases ho with h | h <;> cases h
        · cases hy) rfl
  exact ⟨_, _, t', rfl, rfl, h⟩

/-- The array type gets the string type for its items (`C74_setter_object`). -/
example (X : Xyml) : ∃ t u t', (nestHeap X).val 3 3 = some t ∧ (nestHeap X).val 3 2 = some u ∧
    t.apply (.setItems (some u)) = some t' ∧
    ((nestHeap X).act X (.onType 3 (.ptr (.setItems (some 2))))).val 4 3 = some t' := by
  obtain ⟨t', h⟩ := (C74_setter_object (nest_reachable X) (n := 3) (a := 3) rfl
    (op := .setItems (some 2)) ⟨show 3 < 4 by decide, by rintro x ⟨⟩; show 2 < 4; decide⟩ (by
      rintro p ⟨⟩ hr
      rcases ReflTransGen.cases_head hr with h | ⟨y, hy, h⟩
      · cases h
      · have : (nestHeap X).refs (.ty 2) = [.xm 2, .am 2, .em 2, .fm 2] := rfl
        rw [Heap.Points, this] at hy
        simp only [List.mem_cons, List.not_mem_nil, or_false] at hy
        rcases hy with rfl | rfl | rfl | rfl <;>
          (rcases ReflTransGen.cases_head h with h | ⟨z, hz, _⟩
           · cases h
           · cases hz)) rfl).1 _ rfl
  exact ⟨_, _, t', rfl, rfl, h⟩

/-- The array type as its own items cannot be written (`C74_setter_loop`). -/
example (X : Xyml) (n : Nat) :
    ((nestHeap X).act X (.onType 3 (.ptr (.setItems (some 3))))).write X n 3 = none :=
  C74_setter_loop (nest_reachable X) (a := 3) (op := .setItems (some 3))
    ⟨show 3 < 4 by decide, by rintro x ⟨⟩; show 3 < 4; decide⟩ rfl .refl rfl n

/-- The premises of `C74_setter_object`: handing the object type to another array type. -/
example (X : Xyml) : ∃ t o, (nestHeap X).val 3 3 = some t ∧
    (∀ p ∈ (PtrOp.setItems (some 2)).arg, ¬ (nestHeap X).Reaches p (.ty 3)) ∧
    (PtrOp.setItems (some 2)).deref (nestHeap X) 3 = some o := by
  refine ⟨_, _, rfl, fun p hp hr => ?_, rfl⟩
  cases hp
  have h1 : (nestHeap X).Points (.ty 1) (.tm 1) := by
    have : (nestHeap X).refs (.ty 1) = [.xm 1, .am 1, .em 1, .fm 1, .tm 1] := rfl
    rw [Heap.Points, this]; decide
  have h2 : (nestHeap X).Points (.tm 1) (.ty 2) := by
    have : (nestHeap X).refs (.tm 1) = [.ty 2] := rfl
    rw [Heap.Points, this]; decide
  have h2 : (nestHeap X).Reaches (.ty 1) (.ty 3) :=
    ((ReflTransGen.single h1).tail h2).trans hr
  exact absurd (nest_object X h2) (by decide)

/-- The premises of `C74_setter_loop`: the array type becomes a property of the object type. -/
example (X : Xyml) : (nestHeap X).Reaches (.ty 3) (.ty 1) := .single (by
  have : (nestHeap X).refs (.ty 3) = [.xm 3, .am 3, .em 3, .fm 3, .ty 1] := rfl
  rw [Heap.Points, this]; decide)

/-- Calls on the string type show in the object type, as `C74_inside_property` says. -/
example (X : Xyml) : ∃ t u t', (nestHeap X).val 2 1 = some t ∧
    ((nestHeap X).run X [.onType 2 (.plain (.setDescription "d"))]).val 2 2 = some u ∧
    t.apply (.editProperties fun x => x.call (.replaceIfExists "p" u)) = some t' ∧
    ((nestHeap X).run X [.onType 2 (.plain (.setDescription "d"))]).val 3 1 = some t' := by
  have hl : (nestHeap X).LegalAll X [.onType 2 (.plain (.setDescription "d"))] :=
    ⟨⟨show 2 < 4 by decide, trivial⟩, trivial⟩
  have hkc : ∀ e ∈ ((nestHeap X).tm 1).ents, e.1 = "p" ↔ e.2 = 2 := by
    intro e he
    have : e = ("p", 2) := by simpa using (show e ∈ [("p", 2)] from he)
    subst this; simp
  have hs : ∀ o ∈ (nestHeap X).touchesAll X [.onType 2 (.plain (.setDescription "d"))],
      o ≠ .ty 1 ∧ o ≠ .tm 1 ∧
      (∀ p, (nestHeap X).Points (.ty 1) p → p ≠ .tm 1 → ¬ (nestHeap X).Reaches p o) ∧
      ∀ e ∈ ((nestHeap X).tm 1).ents, e.2 ≠ 2 → ¬ (nestHeap X).Reaches (.ty e.2) o := by
    intro o ho
    have ho : o ∈ [Obj.ty 2] := ho
    rw [List.mem_singleton] at ho
    subst ho
    refine ⟨by simp, by simp, fun p hp hne hr => ?_, fun e he hne => ?_⟩
    · have : (nestHeap X).refs (.ty 1) = [.xm 1, .am 1, .em 1, .fm 1, .tm 1] := rfl
      rw [Heap.Points, this] at hp
      simp only [List.mem_cons, List.not_mem_nil, or_false] at hp
      rcases hp with rfl | rfl | rfl | rfl | rfl
      any_goals exact absurd rfl hne
      all_goals
        rcases ReflTransGen.cases_head hr with h | ⟨y, hy, _⟩
        · cases h
        · cases hy
    · have : e = ("p", 2) := by simpa using (show e ∈ [("p", 2)] from he)
      subst this; exact absurd rfl hne
  obtain ⟨t', h1, h2⟩ := C74_inside_property (nest_reachable X) (n := 2) (a := 1) (m := 1) rfl
    (show 1 < 4 by decide) rfl hkc hl hs rfl
  exact ⟨_, _, t', rfl, rfl, h1, h2⟩

/-- The same heap after the object type and the string type were given the same annotations. -/
def commonHeap (X : Xyml) : Heap :=
  (nestHeap X).run X [.onType 2 (.ptr (.setAnnotations (some 1)))]

/-- The annotations of the property types. -/
def propertyAnnotations : DT → List (OM String Ann)
  | .ext _ _ _ ps _ => ps.ents.map fun e => match e.2 with
    | .ext h _ _ _ _ => h.annotations
    | .basic .. => OM.empty true
  | _ => []

/-- Owning is needed in `C74_edit_annotations`: here a change of the annotations of the object type
shows in its property too. -/
example (X : Xyml) (v : Ann) : ∃ t t',
    (commonHeap X).val 2 1 = some t ∧
    t.apply (.editAnnotations fun m => m.put "(x)" v) = some t' ∧
    ((commonHeap X).edit (.am 1 fun m => m.put "(x)" v)).val 3 1 ≠ some t' := by
  refine ⟨_, _, rfl, rfl, fun h => ?_⟩
  have : [(⟨[("(x)", v)], true⟩ : OM String Ann)] = [⟨[], true⟩] :=
    congrArg propertyAnnotations (Option.some.inj h)
  simp at this

end examples

/-! ## C75: documents -/

/-- A new API document has ten sections of its own. -/
theorem C75_new_api {X : Xyml} {H : Heap} (hr : Reachable X H) :
    (H.act X .newApi).Own (.api H.next) ∧
      (H.act X .newApi).docVal 0 (.api H.next) = some (.new (.api H.next)) ∧
      ∀ o, o.addr < H.next → (H.act X .newApi).Apart o (.api H.next) := by
  have hrefs : H.newApi.2.refs (.api H.next) = [.tm H.next, .um H.next, .um (H.next + 1),
      .um (H.next + 2), .am H.next, .um (H.next + 3), .um (H.next + 4), .sm H.next,
      .um (H.next + 5), .xm H.next] := by
    simp only [Heap.refs, Heap.newApi, upd_self]
  have hleaf : ∀ o ∈ H.newApi.2.refs (.api H.next), H.next ≤ o.addr ∧ o.addr < H.next + 6 ∧
      H.newApi.2.refs o = [] := by
    intro o ho
    rw [hrefs] at ho
    simp only [List.mem_cons, List.not_mem_nil, or_false] at ho
    rcases ho with rfl | rfl | rfl | rfl | rfl | rfl | rfl | rfl | rfl | rfl <;>
      simp [Obj.addr, Heap.refs, Heap.newApi, upd_self, OM.empty]
  refine ⟨own_of_refs ?_ fun o ho => (hleaf o ho).2.2, ?_, fun o ho =>
    apart_new hr.closed (quiet_newApi H).only.extends ?_ ho⟩
  · show (H.newApi.2.refs (.api H.next)).Nodup
    rw [hrefs]
    simp
  · simp [Heap.docVal, Heap.act, Heap.newApi, Heap.apiVal, Heap.apiWith, upd, followMap, OM.empty,
      DocVal.new, APISpec.new]
  · exact above_of_refs (Nat.le_refl _) (Nat.lt_add_of_pos_right (by decide)) fun y hy =>
      above_leaf (hleaf y hy).1 (hleaf y hy).2.1 (hleaf y hy).2.2

example (X : Xyml) : (Heap.start.run X [.newLib, .newApi]).Apart (.lib 1) (.api 5) :=
  (C75_new_api (X := X) (reachable_run (ss := [.newLib]) .start ⟨trivial, trivial⟩)).2.2 (.lib 1)
    (show 1 < 5 by decide)

/-- A new library has eight. -/
theorem C75_new_lib {X : Xyml} {H : Heap} (hr : Reachable X H) :
    (H.act X .newLib).Own (.lib H.next) ∧
      (H.act X .newLib).docVal 0 (.lib H.next) = some (.new (.lib H.next)) ∧
      ∀ o, o.addr < H.next → (H.act X .newLib).Apart o (.lib H.next) := by
  have hrefs : H.newLib.2.refs (.lib H.next) = [.tm H.next, .um H.next, .um (H.next + 1),
      .um (H.next + 2), .am H.next, .um (H.next + 3), .sm H.next, .xm H.next] := by
    simp only [Heap.refs, Heap.newLib, upd_self]
  have hleaf : ∀ o ∈ H.newLib.2.refs (.lib H.next), H.next ≤ o.addr ∧ o.addr < H.next + 4 ∧
      H.newLib.2.refs o = [] := by
    intro o ho
    rw [hrefs] at ho
    simp only [List.mem_cons, List.not_mem_nil, or_false] at ho
    rcases ho with rfl | rfl | rfl | rfl | rfl | rfl | rfl | rfl <;>
      simp [Obj.addr, Heap.refs, Heap.newLib, upd_self, OM.empty]
  refine ⟨own_of_refs ?_ fun o ho => (hleaf o ho).2.2, ?_, fun o ho =>
    apart_new hr.closed (quiet_newLib H).only.extends ?_ ho⟩
  · show (H.newLib.2.refs (.lib H.next)).Nodup
    rw [hrefs]
    simp
  · simp [Heap.docVal, Heap.act, Heap.newLib, Heap.libVal, Heap.libWith, upd, followMap, OM.empty,
      DocVal.new, Library.new]
  · exact above_of_refs (Nat.le_refl _) (Nat.lt_add_of_pos_right (by decide)) fun y hy =>
      above_leaf (hleaf y hy).1 (hleaf y hy).2.1 (hleaf y hy).2.2

example (X : Xyml) : (Heap.start.run X [.newApi, .newLib]).Own (.lib 7) :=
  (C75_new_lib (X := X) (reachable_run (ss := [.newApi]) .start ⟨trivial, trivial⟩)).1

/-- Loading into an API document that owns its sections: the new value, and whether there was an
error or a panic, are those of loading into the value; the document still owns its sections. -/
theorem C75_load_api {X : Xyml} {H : Heap} (hr : Reachable X H) {d : Addr} (hd : d < H.next)
    (ho : H.Own (.api d)) {n : Nat} {s : APISpec} (hv : H.apiVal n d = some s) (v : Node) :
    (∃ n', (H.apiLoad X d v).1.apiVal n' d = some (s.load X v).1) ∧
      (H.apiLoad X d v).2 = (s.load X v).2 ∧ (H.apiLoad X d v).1.Own (.api d) := by
  have := apiLoad_sim (X := X) ⟨hr.closed, hd, ho, n, hv⟩ v
  exact ⟨this.1.val, this.2, this.1.own⟩

/-- The same for a library. -/
theorem C75_load_lib {X : Xyml} {H : Heap} (hr : Reachable X H) {d : Addr} (hd : d < H.next)
    (ho : H.Own (.lib d)) {n : Nat} {s : Library} (hv : H.libVal n d = some s) (v : Node) :
    (∃ n', (H.libLoad X d v).1.libVal n' d = some (s.load X v).1) ∧
      (H.libLoad X d v).2 = (s.load X v).2 ∧ (H.libLoad X d v).1.Own (.lib d) := by
  have := libLoad_sim (X := X) ⟨hr.closed, hd, ho, n, hv⟩ v
  exact ⟨this.1.val, this.2, this.1.own⟩

/-- A setter of an API document stores the value of the map it is given, or an empty map for nil,
whatever the document shares. -/
theorem C75_setter_api {X : Xyml} {H : Heap} (hr : Reachable X H) {d : Addr} {op : ApiPtrOp}
    (hl : H.Legal (.setApi d op)) {n : Nat} {s : APISpec} (hv : H.apiVal n d = some s) {o : ApiOp}
    (ho : op.deref H n = some o) : (H.setApi d op).apiVal n d = some (s.apply o) :=
  setApi_exact hr.closed hl hv ho

/-- The same for a library. -/
theorem C75_setter_lib {X : Xyml} {H : Heap} (hr : Reachable X H) {d : Addr} {op : LibPtrOp}
    (hl : H.Legal (.setLib d op)) {n : Nat} {s : Library} (hv : H.libVal n d = some s) {o : LibOp}
    (ho : op.deref H n = some o) : (H.setLib d op).libVal n d = some (s.apply o) :=
  setLib_exact hr.closed hl hv ho

theorem val_setApiV (H : Heap) (d : Addr) (f : APISpec → APISpec) (n : Nat) :
    (H.setApiV d f).val n = H.val n := by
  induction n with
  | zero => rfl
  | succ n ih =>
    funext a
    show (H.setApiV d f).view ((H.setApiV d f).val n) a = H.view (H.val n) a
    rw [ih]; rfl

theorem val_setLibV (H : Heap) (d : Addr) (f : Library → Library) (n : Nat) :
    (H.setLibV d f).val n = H.val n := by
  induction n with
  | zero => rfl
  | succ n ih =>
    funext a
    show (H.setLibV d f).view ((H.setLibV d f).val n) a = H.view (H.val n) a
    rw [ih]; rfl

set_option linter.unusedTactic false in
/-- A setter that takes no map, whatever the document shares. -/
theorem C75_plain_api (X : Xyml) (H : Heap) (d : Addr) {op : ApiOp} (hp : op.plain = true) (n : Nat) :
    (H.act X (.onApi d op)).apiVal n d = (H.apiVal n d).map fun s => s.apply op := by
  simp only [Heap.act, hp, if_true, Heap.apiVal, val_setApiV, Option.map_map]
  have e : ((H.setApiV d fun a => a.apply op).api d).types = (H.api d).types := by
    simp only [Heap.setApiV, upd_self]
  rw [e]
  show Option.map _ (followMap (H.val n) (H.tm (H.api d).types)) = _
  refine congrArg (fun g => Option.map g _) (funext fun ts => ?_)
  cases op <;> first
    | (simp only [Function.comp, Heap.apiWith, Heap.setApiV, upd_self, APISpec.apply]; done)
    | cases hp

/-- The same for a library. -/
theorem C75_plain_lib (X : Xyml) (H : Heap) (d : Addr) {op : LibOp} (hp : op.plain = true) (n : Nat) :
    (H.act X (.onLib d op)).libVal n d = (H.libVal n d).map fun s => s.apply op := by
  simp only [Heap.act, hp, if_true, Heap.libVal, val_setLibV, Option.map_map]
  have e : ((H.setLibV d fun a => a.apply op).lib d).types = (H.lib d).types := by
    simp only [Heap.setLibV, upd_self]
  rw [e]
  show Option.map _ (followMap (H.val n) (H.tm (H.lib d).types)) = _
  refine congrArg (fun g => Option.map g _) (funext fun ts => ?_)
  cases op <;> first
    | (simp only [Function.comp, Heap.libWith, Heap.setLibV, upd_self, Library.apply]; done)
    | cases hp

/-- A call on the types of an API document that owns its sections; a data type that is put in may be
any that does not lead back to them, and the document still owns its sections. -/
theorem C75_types_api {X : Xyml} {H : Heap} (hr : Reachable X H) {d : Addr} (hd : d < H.next)
    (ho : H.Own (.api d)) {n : Nat} {s : APISpec} (hv : H.apiVal n d = some s)
    {op : OMap.Op String Addr} (hl : H.Legal (.edit (.tm (H.api d).types fun y => y.call op)))
    (harg : ∀ u ∈ opArg op, u < H.next ∧ ∀ o ∈ H.refs (.api d), ¬ H.Reaches (.ty u) o)
    {op' : OMap.Op String DT} (hop : followOp (H.val n) op = some op') :
    (∃ n', (H.edit (.tm (H.api d).types fun y => y.call op)).apiVal n' d =
        some { s with types := s.types.call op' }) ∧
      (H.edit (.tm (H.api d).types fun y => y.call op)).Own (.api d) := by
  have := ApiSim.types_call ⟨hr.closed, hd, ho, n, hv⟩ hv hl harg hop
  exact ⟨this.val, this.own⟩

/-- The same for a library. -/
theorem C75_types_lib {X : Xyml} {H : Heap} (hr : Reachable X H) {d : Addr} (hd : d < H.next)
    (ho : H.Own (.lib d)) {n : Nat} {s : Library} (hv : H.libVal n d = some s)
    {op : OMap.Op String Addr} (hl : H.Legal (.edit (.tm (H.lib d).types fun y => y.call op)))
    (harg : ∀ u ∈ opArg op, u < H.next ∧ ∀ o ∈ H.refs (.lib d), ¬ H.Reaches (.ty u) o)
    {op' : OMap.Op String DT} (hop : followOp (H.val n) op = some op') :
    (∃ n', (H.edit (.tm (H.lib d).types fun y => y.call op)).libVal n' d =
        some { s with types := s.types.call op' }) ∧
      (H.edit (.tm (H.lib d).types fun y => y.call op)).Own (.lib d) := by
  have := LibSim.types_call ⟨hr.closed, hd, ho, n, hv⟩ hv hl harg hop
  exact ⟨this.val, this.own⟩

/-- Any number of documents that share nothing, and a program that works on them by turns: setters,
`Unset`s, loads, changes through the getters of the sections, new data types put in.  In the end
every document has the value that its own steps give, as if there were no other document and no
pointers, and is written as that value. -/
theorem C75_programs {X : Xyml} {H : Heap} (hr : Reachable X H) {docs : Holder → Prop}
    {vals : Holder → DocVal} (hlt : ∀ x, docs x → x.obj.addr < H.next)
    (hown : ∀ x, docs x → H.Own x) (hval : ∀ x, docs x → ∃ n, H.docVal n x = some (vals x))
    (hap : ∀ x y, docs x → docs y → x ≠ y → H.Apart x.obj y.obj)
    (ps : List (Holder × DocStep)) (hps : ∀ p ∈ ps, docs p.1) :
    Reachable X (H.runDocs X ps) ∧ ∀ x, docs x →
      ∃ n, (H.runDocs X ps).docVal n x =
          some ((stepsOf x ps).foldl (DocVal.step X) (vals x)) ∧
        (H.runDocs X ps).docWrite X n x =
          some (((stepsOf x ps).foldl (DocVal.step X) (vals x)).toYAML X) := by
  refine ⟨docs_reachable ps hr fun p hp => hlt _ (hps p hp), fun x hx => ?_⟩
  have h := docs_run (X := X) ps hps
    (⟨fun x hx => ⟨hr.closed, hlt x hx, hown x hx, hval x hx⟩, hap⟩ : DocsSim docs H vals)
  obtain ⟨n, hn⟩ := (h.sim x hx).val
  refine ⟨n, hn, ?_⟩
  generalize (stepsOf x ps).foldl (DocVal.step X) (vals x) = v at hn
  cases x with
  | api d =>
    obtain ⟨s, hs, rfl⟩ := Option.map_eq_some_iff.mp hn
    simp only [Heap.docWrite, apiWrite_eq, hs, Option.map_some, DocVal.toYAML]
  | lib d =>
    obtain ⟨s, hs, rfl⟩ := Option.map_eq_some_iff.mp hn
    simp only [Heap.docWrite, libWrite_eq, hs, Option.map_some, DocVal.toYAML]

section examples

/-- An API document at 1 and a library at 7. -/
theorem pair_facts (X : Xyml) :
    Reachable X (Heap.start.run X [.newApi, .newLib]) ∧
    (Heap.start.run X [.newApi, .newLib]).Own (.api 1) ∧
    (Heap.start.run X [.newApi, .newLib]).Own (.lib 7) ∧
    (Heap.start.run X [.newApi, .newLib]).Apart (.api 1) (.lib 7) := by
  have h1 : Reachable X (Heap.start.act X .newApi) := .act _ .start trivial
  have h2 := C75_new_lib h1
  refine ⟨.act .newLib h1 trivial, own_of_refs ?_ ?_, h2.1, h2.2.2 (.api 1) (show 1 < 7 by decide)⟩
  · have : (Heap.start.run X [.newApi, .newLib]).refs (.api 1) = [.tm 1, .um 1, .um 2, .um 3, .am 1,
      .um 4, .um 5, .sm 1, .um 6, .xm 1] := rfl
    show List.Nodup (Heap.refs _ (.api 1))
    rw [this]; decide
  · intro o ho
    have ho : o ∈ [Obj.tm 1, .um 1, .um 2, .um 3, .am 1, .um 4, .um 5, .sm 1, .um 6, .xm 1] := ho
    simp only [List.mem_cons, List.not_mem_nil, or_false] at ho
    rcases ho with rfl | rfl | rfl | rfl | rfl | rfl | rfl | rfl | rfl | rfl <;> rfl

/-- The premises of `C75_programs`, for these two. -/
example (X : Xyml) (v w : Node) (k : String) :
    ∃ n, ((Heap.start.run X [.newApi, .newLib]).runDocs X
        [(.api 1, .load v), (.lib 7, .putType k w), (.api 1, .unset .traits), (.lib 7, .load v)]).docVal
          n (.lib 7) =
      some (((DocVal.new (.lib 7)).step X (.putType k w)).step X (.load v)) := by
  obtain ⟨hr, o1, o2, ha⟩ := pair_facts X
  obtain ⟨n, hn, _⟩ := (C75_programs hr (docs := fun x => x = .api 1 ∨ x = .lib 7)
    (vals := DocVal.new) (by rintro x (rfl | rfl); exacts [show 1 < 11 by decide, show 7 < 11 by decide])
    (by rintro x (rfl | rfl); exacts [o1, o2])
    (by rintro x (rfl | rfl); exacts [⟨0, rfl⟩, ⟨0, rfl⟩])
    (by
      rintro x y (rfl | rfl) (rfl | rfl) hne
      exacts [absurd rfl hne, ha, fun o h1 h2 => ha o h2 h1, absurd rfl hne])
    [(.api 1, .load v), (.lib 7, .putType k w), (.api 1, .unset .traits), (.lib 7, .load v)]
    (by
      intro p hp
      simp only [List.mem_cons, List.not_mem_nil, or_false] at hp
      rcases hp with rfl | rfl | rfl | rfl <;> simp)).2 (.lib 7) (Or.inr rfl)
  exact ⟨n, hn⟩

/-- Documents are loaded into the two, one after the other. -/
example (X : Xyml) (v : Node) : ∃ n, ((Heap.start.run X [.newApi, .newLib]).apiLoad X 1 v).1.apiVal n 1 =
    some (APISpec.new.load X v).1 :=
  (C75_load_api (pair_facts X).1 (show 1 < 11 by decide) (pair_facts X).2.1 (n := 0) rfl v).1

example (X : Xyml) (v : Node) : ((Heap.start.run X [.newApi, .newLib]).libLoad X 7 v).2 =
    (Library.new.load X v).2 :=
  (C75_load_lib (pair_facts X).1 (show 7 < 11 by decide) (pair_facts X).2.2.1 (n := 0) rfl v).2.1

/-- The document is given the traits of the library, and the other way round. -/
example (X : Xyml) : ((Heap.start.run X [.newApi, .newLib]).setApi 1 (.traits (some 7))).apiVal 0 1 =
    some (APISpec.new.apply (.setTraits (some (OM.empty false)))) := by
  refine C75_setter_api (pair_facts X).1 (op := .traits (some 7)) ⟨show 1 < 11 by decide, ?_⟩ rfl rfl
  rintro x ⟨⟩; show 7 < 11; decide

example (X : Xyml) : ((Heap.start.run X [.newApi, .newLib]).setLib 7 (.uses (some 1))).libVal 0 7 =
    some (Library.new.apply (.setUses (some (OM.empty false)))) := by
  refine C75_setter_lib (pair_facts X).1 (op := .uses (some 1)) ⟨show 7 < 11 by decide, ?_⟩ rfl rfl
  rintro x ⟨⟩; show 1 < 11; decide

example (X : Xyml) : ((Heap.start.run X [.newApi, .newLib]).act X (.onLib 7 (.setUsage "u"))).libVal 0 7 =
    some (Library.new.apply (.setUsage "u")) :=
  C75_plain_lib X _ 7 rfl 0

/-- A call on the map of types of one of the two. -/
example (X : Xyml) : ∃ n, ((Heap.start.run X [.newApi, .newLib]).edit
      (.tm 1 fun y => y.call (.serializeOrdered true))).apiVal n 1 =
    some { APISpec.new with types := APISpec.new.types.call (.serializeOrdered true) } :=
  (C75_types_api (pair_facts X).1 (show 1 < 11 by decide) (pair_facts X).2.1 (n := 0) rfl
    (op := .serializeOrdered true) ⟨show 1 < 11 by decide, nofun⟩ nofun rfl).1

example (X : Xyml) : ∃ n, ((Heap.start.run X [.newApi, .newLib]).edit
      (.tm 7 fun y => y.call (.serializeOrdered true))).libVal n 7 =
    some { Library.new with types := Library.new.types.call (.serializeOrdered true) } :=
  (C75_types_lib (pair_facts X).1 (show 7 < 11 by decide) (pair_facts X).2.2.1 (n := 0) rfl
    (op := .serializeOrdered true) ⟨show 7 < 11 by decide, nofun⟩ nofun rfl).1

/-- Owning is needed: in `sharedHeap` the library at 13 and the API document at 1 have their traits
in common, and a trait that is put in through one is there in the other. -/
example (X : Xyml) (v : Node) : ∃ s,
    (sharedHeap X).docVal 0 (.lib 13) = some s ∧
    ((sharedHeap X).runDocs X [(.api 1, .nodes .traits fun m => m.put "t" v)]).docVal 0 (.lib 13) ≠
      some s := by
  refine ⟨_, rfl, fun h => ?_⟩
  have : (⟨[("t", v)], false⟩ : OM String Node) = ⟨[], false⟩ :=
    congrArg (fun d => match d with | DocVal.lib l => l.traits | _ => OM.empty true)
      (Option.some.inj h)
  simp at this

/-- A setter that takes no map acts as on a value in spite of that (`C75_plain_api`). -/
example (X : Xyml) : ((sharedHeap X).act X (.onApi 7 (.setTitle "t"))).apiVal 0 7 =
    ((sharedHeap X).apiVal 0 7).map fun s => s.apply (.setTitle "t") :=
  C75_plain_api X _ 7 rfl 0

end examples

end Verif.Props
